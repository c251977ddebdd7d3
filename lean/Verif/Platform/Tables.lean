import Verif.Platform.LayoutLemmas
import Verif.Platform.Linux
import Verif.Platform.Win32
import Verif.Platform.Aix
import Verif.Platform.Solaris
/-!
# The layouts of the four request blocks, computed
-/

set_option linter.unusedSimpArgs false

namespace Verif.Platform

namespace Linux

theorem layoutTable (l : Bool) : layout (lp64 l) none sgioDecl =
    [⟨"interface_id", 0, 4, true⟩,
     ⟨"dxfer_direction", 4, 4, true⟩,
     ⟨"cmd_len", 8, 1, false⟩,
     ⟨"mx_sb_len", 9, 1, false⟩,
     ⟨"iovec_count", 10, 2, false⟩,
     ⟨"dxfer_len", 12, 4, false⟩,
     ⟨"dxferp", 16, 8, false⟩,
     ⟨"cmdp", 24, 8, false⟩,
     ⟨"sbp", 32, 8, false⟩,
     ⟨"timeout", 40, 4, false⟩,
     ⟨"flags", 44, 4, false⟩,
     ⟨"pack_id", 48, 4, true⟩,
     ⟨"usr_ptr", 56, 8, false⟩,
     ⟨"status", 64, 1, false⟩,
     ⟨"masked_status", 65, 1, false⟩,
     ⟨"msg_status", 66, 1, false⟩,
     ⟨"sb_len_wr", 67, 1, false⟩,
     ⟨"host_status", 68, 2, false⟩,
     ⟨"driver_status", 70, 2, false⟩,
     ⟨"resid", 72, 4, true⟩,
     ⟨"duration", 76, 4, false⟩,
     ⟨"info", 80, 4, false⟩] := by
  simp [layout, place, sgioDecl, alignUp, fieldAlign, CType.align, CType.size, CType.signed, lp64, win32, win64, c_int, c_uint,
    c_ubyte, c_ushort, c_short, c_ulong, c_ulonglong, c_void_p]

@[simp] theorem sizeValue (l : Bool) : sgioSize (lp64 l) = 88 := by
  simp [sgioSize, sizeOf, placeEnd, maxAlign, sgioDecl, alignUp, fieldAlign, CType.align, CType.size, CType.signed, lp64, win32, win64, c_int, c_uint,
    c_ubyte, c_ushort, c_short, c_ulong, c_ulonglong, c_void_p]

@[simp] theorem fld_interface_id (l : Bool) : fld (lp64 l) "interface_id" = ⟨"interface_id", 0, 4, true⟩ := by
  simp [fld, layoutTable, slot, List.find?]
@[simp] theorem fld_dxfer_direction (l : Bool) : fld (lp64 l) "dxfer_direction" = ⟨"dxfer_direction", 4, 4, true⟩ := by
  simp [fld, layoutTable, slot, List.find?]
@[simp] theorem fld_cmd_len (l : Bool) : fld (lp64 l) "cmd_len" = ⟨"cmd_len", 8, 1, false⟩ := by
  simp [fld, layoutTable, slot, List.find?]
@[simp] theorem fld_mx_sb_len (l : Bool) : fld (lp64 l) "mx_sb_len" = ⟨"mx_sb_len", 9, 1, false⟩ := by
  simp [fld, layoutTable, slot, List.find?]
@[simp] theorem fld_iovec_count (l : Bool) : fld (lp64 l) "iovec_count" = ⟨"iovec_count", 10, 2, false⟩ := by
  simp [fld, layoutTable, slot, List.find?]
@[simp] theorem fld_dxfer_len (l : Bool) : fld (lp64 l) "dxfer_len" = ⟨"dxfer_len", 12, 4, false⟩ := by
  simp [fld, layoutTable, slot, List.find?]
@[simp] theorem fld_dxferp (l : Bool) : fld (lp64 l) "dxferp" = ⟨"dxferp", 16, 8, false⟩ := by
  simp [fld, layoutTable, slot, List.find?]
@[simp] theorem fld_cmdp (l : Bool) : fld (lp64 l) "cmdp" = ⟨"cmdp", 24, 8, false⟩ := by
  simp [fld, layoutTable, slot, List.find?]
@[simp] theorem fld_sbp (l : Bool) : fld (lp64 l) "sbp" = ⟨"sbp", 32, 8, false⟩ := by
  simp [fld, layoutTable, slot, List.find?]
@[simp] theorem fld_timeout (l : Bool) : fld (lp64 l) "timeout" = ⟨"timeout", 40, 4, false⟩ := by
  simp [fld, layoutTable, slot, List.find?]
@[simp] theorem fld_flags (l : Bool) : fld (lp64 l) "flags" = ⟨"flags", 44, 4, false⟩ := by
  simp [fld, layoutTable, slot, List.find?]
@[simp] theorem fld_pack_id (l : Bool) : fld (lp64 l) "pack_id" = ⟨"pack_id", 48, 4, true⟩ := by
  simp [fld, layoutTable, slot, List.find?]
@[simp] theorem fld_usr_ptr (l : Bool) : fld (lp64 l) "usr_ptr" = ⟨"usr_ptr", 56, 8, false⟩ := by
  simp [fld, layoutTable, slot, List.find?]
@[simp] theorem fld_status (l : Bool) : fld (lp64 l) "status" = ⟨"status", 64, 1, false⟩ := by
  simp [fld, layoutTable, slot, List.find?]
@[simp] theorem fld_masked_status (l : Bool) : fld (lp64 l) "masked_status" = ⟨"masked_status", 65, 1, false⟩ := by
  simp [fld, layoutTable, slot, List.find?]
@[simp] theorem fld_msg_status (l : Bool) : fld (lp64 l) "msg_status" = ⟨"msg_status", 66, 1, false⟩ := by
  simp [fld, layoutTable, slot, List.find?]
@[simp] theorem fld_sb_len_wr (l : Bool) : fld (lp64 l) "sb_len_wr" = ⟨"sb_len_wr", 67, 1, false⟩ := by
  simp [fld, layoutTable, slot, List.find?]
@[simp] theorem fld_host_status (l : Bool) : fld (lp64 l) "host_status" = ⟨"host_status", 68, 2, false⟩ := by
  simp [fld, layoutTable, slot, List.find?]
@[simp] theorem fld_driver_status (l : Bool) : fld (lp64 l) "driver_status" = ⟨"driver_status", 70, 2, false⟩ := by
  simp [fld, layoutTable, slot, List.find?]
@[simp] theorem fld_resid (l : Bool) : fld (lp64 l) "resid" = ⟨"resid", 72, 4, true⟩ := by
  simp [fld, layoutTable, slot, List.find?]
@[simp] theorem fld_duration (l : Bool) : fld (lp64 l) "duration" = ⟨"duration", 76, 4, false⟩ := by
  simp [fld, layoutTable, slot, List.find?]
@[simp] theorem fld_info (l : Bool) : fld (lp64 l) "info" = ⟨"info", 80, 4, false⟩ := by
  simp [fld, layoutTable, slot, List.find?]

end Linux

namespace Win32

theorem layoutTable_64 : layout win64 (some 1) (sptDecl win64) =
    [⟨"Length", 0, 2, false⟩,
     ⟨"ScsiStatus", 2, 1, false⟩,
     ⟨"PathId", 3, 1, false⟩,
     ⟨"TargetId", 4, 1, false⟩,
     ⟨"Lun", 5, 1, false⟩,
     ⟨"CdbLength", 6, 1, false⟩,
     ⟨"SenseInfoLength", 7, 1, false⟩,
     ⟨"DataIn", 8, 1, false⟩,
     ⟨"padding1", 9, 3, false⟩,
     ⟨"DataTransferLength", 12, 4, false⟩,
     ⟨"TimeOutValue", 16, 4, false⟩,
     ⟨"padding2", 20, 4, false⟩,
     ⟨"DataBuffer", 24, 8, false⟩,
     ⟨"SenseInfoOffset", 32, 4, false⟩,
     ⟨"Cdb", 36, 16, false⟩,
     ⟨"padding3", 52, 4, false⟩,
     ⟨"sense_buffer", 56, 255, false⟩] := by
  simp [layout, place, sptDecl, alignUp, fieldAlign, CType.align, CType.size, CType.signed, lp64, win32, win64, c_int, c_uint,
    c_ubyte, c_ushort, c_short, c_ulong, c_ulonglong, c_void_p]

@[simp] theorem sizeValue_64 : sptSize win64 = 311 := by
  simp [sptSize, sizeOf, placeEnd, maxAlign, sptDecl, alignUp, fieldAlign, CType.align, CType.size, CType.signed, lp64, win32, win64, c_int, c_uint,
    c_ubyte, c_ushort, c_short, c_ulong, c_ulonglong, c_void_p]

@[simp] theorem fld_64_Length : fld win64 "Length" = ⟨"Length", 0, 2, false⟩ := by
  simp [fld, layoutTable_64, slot, List.find?]
@[simp] theorem fld_64_ScsiStatus : fld win64 "ScsiStatus" = ⟨"ScsiStatus", 2, 1, false⟩ := by
  simp [fld, layoutTable_64, slot, List.find?]
@[simp] theorem fld_64_PathId : fld win64 "PathId" = ⟨"PathId", 3, 1, false⟩ := by
  simp [fld, layoutTable_64, slot, List.find?]
@[simp] theorem fld_64_TargetId : fld win64 "TargetId" = ⟨"TargetId", 4, 1, false⟩ := by
  simp [fld, layoutTable_64, slot, List.find?]
@[simp] theorem fld_64_Lun : fld win64 "Lun" = ⟨"Lun", 5, 1, false⟩ := by
  simp [fld, layoutTable_64, slot, List.find?]
@[simp] theorem fld_64_CdbLength : fld win64 "CdbLength" = ⟨"CdbLength", 6, 1, false⟩ := by
  simp [fld, layoutTable_64, slot, List.find?]
@[simp] theorem fld_64_SenseInfoLength : fld win64 "SenseInfoLength" = ⟨"SenseInfoLength", 7, 1, false⟩ := by
  simp [fld, layoutTable_64, slot, List.find?]
@[simp] theorem fld_64_DataIn : fld win64 "DataIn" = ⟨"DataIn", 8, 1, false⟩ := by
  simp [fld, layoutTable_64, slot, List.find?]
@[simp] theorem fld_64_DataTransferLength : fld win64 "DataTransferLength" = ⟨"DataTransferLength", 12, 4, false⟩ := by
  simp [fld, layoutTable_64, slot, List.find?]
@[simp] theorem fld_64_TimeOutValue : fld win64 "TimeOutValue" = ⟨"TimeOutValue", 16, 4, false⟩ := by
  simp [fld, layoutTable_64, slot, List.find?]
@[simp] theorem fld_64_DataBuffer : fld win64 "DataBuffer" = ⟨"DataBuffer", 24, 8, false⟩ := by
  simp [fld, layoutTable_64, slot, List.find?]
@[simp] theorem fld_64_SenseInfoOffset : fld win64 "SenseInfoOffset" = ⟨"SenseInfoOffset", 32, 4, false⟩ := by
  simp [fld, layoutTable_64, slot, List.find?]
@[simp] theorem fld_64_Cdb : fld win64 "Cdb" = ⟨"Cdb", 36, 16, false⟩ := by
  simp [fld, layoutTable_64, slot, List.find?]
@[simp] theorem fld_64_sense_buffer : fld win64 "sense_buffer" = ⟨"sense_buffer", 56, 255, false⟩ := by
  simp [fld, layoutTable_64, slot, List.find?]

end Win32

namespace Win32

theorem layoutTable_32 : layout win32 (some 1) (sptDecl win32) =
    [⟨"Length", 0, 2, false⟩,
     ⟨"ScsiStatus", 2, 1, false⟩,
     ⟨"PathId", 3, 1, false⟩,
     ⟨"TargetId", 4, 1, false⟩,
     ⟨"Lun", 5, 1, false⟩,
     ⟨"CdbLength", 6, 1, false⟩,
     ⟨"SenseInfoLength", 7, 1, false⟩,
     ⟨"DataIn", 8, 1, false⟩,
     ⟨"padding1", 9, 3, false⟩,
     ⟨"DataTransferLength", 12, 4, false⟩,
     ⟨"TimeOutValue", 16, 4, false⟩,
     ⟨"padding2", 20, 0, false⟩,
     ⟨"DataBuffer", 20, 4, false⟩,
     ⟨"SenseInfoOffset", 24, 4, false⟩,
     ⟨"Cdb", 28, 16, false⟩,
     ⟨"padding3", 44, 0, false⟩,
     ⟨"sense_buffer", 44, 255, false⟩] := by
  simp [layout, place, sptDecl, alignUp, fieldAlign, CType.align, CType.size, CType.signed, lp64, win32, win64, c_int, c_uint,
    c_ubyte, c_ushort, c_short, c_ulong, c_ulonglong, c_void_p]

@[simp] theorem sizeValue_32 : sptSize win32 = 299 := by
  simp [sptSize, sizeOf, placeEnd, maxAlign, sptDecl, alignUp, fieldAlign, CType.align, CType.size, CType.signed, lp64, win32, win64, c_int, c_uint,
    c_ubyte, c_ushort, c_short, c_ulong, c_ulonglong, c_void_p]

@[simp] theorem fld_32_Length : fld win32 "Length" = ⟨"Length", 0, 2, false⟩ := by
  simp [fld, layoutTable_32, slot, List.find?]
@[simp] theorem fld_32_ScsiStatus : fld win32 "ScsiStatus" = ⟨"ScsiStatus", 2, 1, false⟩ := by
  simp [fld, layoutTable_32, slot, List.find?]
@[simp] theorem fld_32_PathId : fld win32 "PathId" = ⟨"PathId", 3, 1, false⟩ := by
  simp [fld, layoutTable_32, slot, List.find?]
@[simp] theorem fld_32_TargetId : fld win32 "TargetId" = ⟨"TargetId", 4, 1, false⟩ := by
  simp [fld, layoutTable_32, slot, List.find?]
@[simp] theorem fld_32_Lun : fld win32 "Lun" = ⟨"Lun", 5, 1, false⟩ := by
  simp [fld, layoutTable_32, slot, List.find?]
@[simp] theorem fld_32_CdbLength : fld win32 "CdbLength" = ⟨"CdbLength", 6, 1, false⟩ := by
  simp [fld, layoutTable_32, slot, List.find?]
@[simp] theorem fld_32_SenseInfoLength : fld win32 "SenseInfoLength" = ⟨"SenseInfoLength", 7, 1, false⟩ := by
  simp [fld, layoutTable_32, slot, List.find?]
@[simp] theorem fld_32_DataIn : fld win32 "DataIn" = ⟨"DataIn", 8, 1, false⟩ := by
  simp [fld, layoutTable_32, slot, List.find?]
@[simp] theorem fld_32_DataTransferLength : fld win32 "DataTransferLength" = ⟨"DataTransferLength", 12, 4, false⟩ := by
  simp [fld, layoutTable_32, slot, List.find?]
@[simp] theorem fld_32_TimeOutValue : fld win32 "TimeOutValue" = ⟨"TimeOutValue", 16, 4, false⟩ := by
  simp [fld, layoutTable_32, slot, List.find?]
@[simp] theorem fld_32_DataBuffer : fld win32 "DataBuffer" = ⟨"DataBuffer", 20, 4, false⟩ := by
  simp [fld, layoutTable_32, slot, List.find?]
@[simp] theorem fld_32_SenseInfoOffset : fld win32 "SenseInfoOffset" = ⟨"SenseInfoOffset", 24, 4, false⟩ := by
  simp [fld, layoutTable_32, slot, List.find?]
@[simp] theorem fld_32_Cdb : fld win32 "Cdb" = ⟨"Cdb", 28, 16, false⟩ := by
  simp [fld, layoutTable_32, slot, List.find?]
@[simp] theorem fld_32_sense_buffer : fld win32 "sense_buffer" = ⟨"sense_buffer", 44, 255, false⟩ := by
  simp [fld, layoutTable_32, slot, List.find?]

end Win32

namespace Aix

theorem layoutTable (l : Bool) : layout (lp64 l) none decl =
    [⟨"version", 0, 2, false⟩,
     ⟨"status_validity", 2, 1, false⟩,
     ⟨"scsi_bus_status", 3, 1, false⟩,
     ⟨"adap_status_type", 4, 1, false⟩,
     ⟨"adapter_status", 5, 1, false⟩,
     ⟨"adap_set_flags", 6, 1, false⟩,
     ⟨"add_device_status", 7, 1, false⟩,
     ⟨"adap_q_status", 8, 1, false⟩,
     ⟨"q_tag_msg", 9, 1, false⟩,
     ⟨"flags", 10, 1, false⟩,
     ⟨"devflags", 11, 1, false⟩,
     ⟨"q_flags", 12, 1, false⟩,
     ⟨"command_length", 14, 2, false⟩,
     ⟨"einval_arg", 16, 2, false⟩,
     ⟨"autosense_length", 18, 2, false⟩,
     ⟨"timeout_value", 20, 4, false⟩,
     ⟨"data_length", 24, 8, false⟩,
     ⟨"scsi_id", 32, 8, false⟩,
     ⟨"lun_id", 40, 8, false⟩,
     ⟨"buffer", 48, 8, false⟩,
     ⟨"autosense_buffer_ptr", 56, 8, false⟩,
     ⟨"scsi_cdb", 64, 64, false⟩,
     ⟨"world_wide_name", 128, 8, false⟩,
     ⟨"node_name", 136, 8, false⟩,
     ⟨"variable_cdb_length", 144, 4, false⟩,
     ⟨"variable_cdb_ptr", 152, 8, false⟩,
     ⟨"residual", 160, 8, false⟩] := by
  simp [layout, place, decl, alignUp, fieldAlign, CType.align, CType.size, CType.signed, lp64, win32, win64, c_int, c_uint,
    c_ubyte, c_ushort, c_short, c_ulong, c_ulonglong, c_void_p]

@[simp] theorem sizeValue (l : Bool) : size (lp64 l) = 168 := by
  simp [size, sizeOf, placeEnd, maxAlign, decl, alignUp, fieldAlign, CType.align, CType.size, CType.signed, lp64, win32, win64, c_int, c_uint,
    c_ubyte, c_ushort, c_short, c_ulong, c_ulonglong, c_void_p]

@[simp] theorem fld_version (l : Bool) : fld (lp64 l) "version" = ⟨"version", 0, 2, false⟩ := by
  simp [fld, layoutTable, slot, List.find?]
@[simp] theorem fld_status_validity (l : Bool) : fld (lp64 l) "status_validity" = ⟨"status_validity", 2, 1, false⟩ := by
  simp [fld, layoutTable, slot, List.find?]
@[simp] theorem fld_scsi_bus_status (l : Bool) : fld (lp64 l) "scsi_bus_status" = ⟨"scsi_bus_status", 3, 1, false⟩ := by
  simp [fld, layoutTable, slot, List.find?]
@[simp] theorem fld_adap_status_type (l : Bool) : fld (lp64 l) "adap_status_type" = ⟨"adap_status_type", 4, 1, false⟩ := by
  simp [fld, layoutTable, slot, List.find?]
@[simp] theorem fld_adapter_status (l : Bool) : fld (lp64 l) "adapter_status" = ⟨"adapter_status", 5, 1, false⟩ := by
  simp [fld, layoutTable, slot, List.find?]
@[simp] theorem fld_adap_set_flags (l : Bool) : fld (lp64 l) "adap_set_flags" = ⟨"adap_set_flags", 6, 1, false⟩ := by
  simp [fld, layoutTable, slot, List.find?]
@[simp] theorem fld_add_device_status (l : Bool) : fld (lp64 l) "add_device_status" = ⟨"add_device_status", 7, 1, false⟩ := by
  simp [fld, layoutTable, slot, List.find?]
@[simp] theorem fld_adap_q_status (l : Bool) : fld (lp64 l) "adap_q_status" = ⟨"adap_q_status", 8, 1, false⟩ := by
  simp [fld, layoutTable, slot, List.find?]
@[simp] theorem fld_q_tag_msg (l : Bool) : fld (lp64 l) "q_tag_msg" = ⟨"q_tag_msg", 9, 1, false⟩ := by
  simp [fld, layoutTable, slot, List.find?]
@[simp] theorem fld_flags (l : Bool) : fld (lp64 l) "flags" = ⟨"flags", 10, 1, false⟩ := by
  simp [fld, layoutTable, slot, List.find?]
@[simp] theorem fld_devflags (l : Bool) : fld (lp64 l) "devflags" = ⟨"devflags", 11, 1, false⟩ := by
  simp [fld, layoutTable, slot, List.find?]
@[simp] theorem fld_q_flags (l : Bool) : fld (lp64 l) "q_flags" = ⟨"q_flags", 12, 1, false⟩ := by
  simp [fld, layoutTable, slot, List.find?]
@[simp] theorem fld_command_length (l : Bool) : fld (lp64 l) "command_length" = ⟨"command_length", 14, 2, false⟩ := by
  simp [fld, layoutTable, slot, List.find?]
@[simp] theorem fld_einval_arg (l : Bool) : fld (lp64 l) "einval_arg" = ⟨"einval_arg", 16, 2, false⟩ := by
  simp [fld, layoutTable, slot, List.find?]
@[simp] theorem fld_autosense_length (l : Bool) : fld (lp64 l) "autosense_length" = ⟨"autosense_length", 18, 2, false⟩ := by
  simp [fld, layoutTable, slot, List.find?]
@[simp] theorem fld_timeout_value (l : Bool) : fld (lp64 l) "timeout_value" = ⟨"timeout_value", 20, 4, false⟩ := by
  simp [fld, layoutTable, slot, List.find?]
@[simp] theorem fld_data_length (l : Bool) : fld (lp64 l) "data_length" = ⟨"data_length", 24, 8, false⟩ := by
  simp [fld, layoutTable, slot, List.find?]
@[simp] theorem fld_scsi_id (l : Bool) : fld (lp64 l) "scsi_id" = ⟨"scsi_id", 32, 8, false⟩ := by
  simp [fld, layoutTable, slot, List.find?]
@[simp] theorem fld_lun_id (l : Bool) : fld (lp64 l) "lun_id" = ⟨"lun_id", 40, 8, false⟩ := by
  simp [fld, layoutTable, slot, List.find?]
@[simp] theorem fld_buffer (l : Bool) : fld (lp64 l) "buffer" = ⟨"buffer", 48, 8, false⟩ := by
  simp [fld, layoutTable, slot, List.find?]
@[simp] theorem fld_autosense_buffer_ptr (l : Bool) : fld (lp64 l) "autosense_buffer_ptr" = ⟨"autosense_buffer_ptr", 56, 8, false⟩ := by
  simp [fld, layoutTable, slot, List.find?]
@[simp] theorem fld_scsi_cdb (l : Bool) : fld (lp64 l) "scsi_cdb" = ⟨"scsi_cdb", 64, 64, false⟩ := by
  simp [fld, layoutTable, slot, List.find?]
@[simp] theorem fld_world_wide_name (l : Bool) : fld (lp64 l) "world_wide_name" = ⟨"world_wide_name", 128, 8, false⟩ := by
  simp [fld, layoutTable, slot, List.find?]
@[simp] theorem fld_node_name (l : Bool) : fld (lp64 l) "node_name" = ⟨"node_name", 136, 8, false⟩ := by
  simp [fld, layoutTable, slot, List.find?]
@[simp] theorem fld_variable_cdb_length (l : Bool) : fld (lp64 l) "variable_cdb_length" = ⟨"variable_cdb_length", 144, 4, false⟩ := by
  simp [fld, layoutTable, slot, List.find?]
@[simp] theorem fld_variable_cdb_ptr (l : Bool) : fld (lp64 l) "variable_cdb_ptr" = ⟨"variable_cdb_ptr", 152, 8, false⟩ := by
  simp [fld, layoutTable, slot, List.find?]
@[simp] theorem fld_residual (l : Bool) : fld (lp64 l) "residual" = ⟨"residual", 160, 8, false⟩ := by
  simp [fld, layoutTable, slot, List.find?]

end Aix

namespace Solaris

theorem layoutTable (l : Bool) : layout (lp64 l) none decl =
    [⟨"uscsi_flags", 0, 4, true⟩,
     ⟨"uscsi_status", 4, 2, true⟩,
     ⟨"uscsi_timeout", 6, 2, true⟩,
     ⟨"uscsi_cdb", 8, 8, false⟩,
     ⟨"uscsi_bufaddr", 16, 8, false⟩,
     ⟨"uscsi_buflen", 24, 8, false⟩,
     ⟨"uscsi_resid", 32, 8, false⟩,
     ⟨"uscsi_cdblen", 40, 1, false⟩,
     ⟨"uscsi_rqlen", 41, 1, false⟩,
     ⟨"uscsi_rqstatus", 42, 1, false⟩,
     ⟨"uscsi_rqresid", 43, 1, false⟩,
     ⟨"uscsi_rqbuf", 48, 8, false⟩,
     ⟨"uscsi_path_instance", 56, 8, false⟩] := by
  simp [layout, place, decl, alignUp, fieldAlign, CType.align, CType.size, CType.signed, lp64, win32, win64, c_int, c_uint,
    c_ubyte, c_ushort, c_short, c_ulong, c_ulonglong, c_void_p]

@[simp] theorem sizeValue (l : Bool) : size (lp64 l) = 64 := by
  simp [size, sizeOf, placeEnd, maxAlign, decl, alignUp, fieldAlign, CType.align, CType.size, CType.signed, lp64, win32, win64, c_int, c_uint,
    c_ubyte, c_ushort, c_short, c_ulong, c_ulonglong, c_void_p]

@[simp] theorem fld_uscsi_flags (l : Bool) : fld (lp64 l) "uscsi_flags" = ⟨"uscsi_flags", 0, 4, true⟩ := by
  simp [fld, layoutTable, slot, List.find?]
@[simp] theorem fld_uscsi_status (l : Bool) : fld (lp64 l) "uscsi_status" = ⟨"uscsi_status", 4, 2, true⟩ := by
  simp [fld, layoutTable, slot, List.find?]
@[simp] theorem fld_uscsi_timeout (l : Bool) : fld (lp64 l) "uscsi_timeout" = ⟨"uscsi_timeout", 6, 2, true⟩ := by
  simp [fld, layoutTable, slot, List.find?]
@[simp] theorem fld_uscsi_cdb (l : Bool) : fld (lp64 l) "uscsi_cdb" = ⟨"uscsi_cdb", 8, 8, false⟩ := by
  simp [fld, layoutTable, slot, List.find?]
@[simp] theorem fld_uscsi_bufaddr (l : Bool) : fld (lp64 l) "uscsi_bufaddr" = ⟨"uscsi_bufaddr", 16, 8, false⟩ := by
  simp [fld, layoutTable, slot, List.find?]
@[simp] theorem fld_uscsi_buflen (l : Bool) : fld (lp64 l) "uscsi_buflen" = ⟨"uscsi_buflen", 24, 8, false⟩ := by
  simp [fld, layoutTable, slot, List.find?]
@[simp] theorem fld_uscsi_resid (l : Bool) : fld (lp64 l) "uscsi_resid" = ⟨"uscsi_resid", 32, 8, false⟩ := by
  simp [fld, layoutTable, slot, List.find?]
@[simp] theorem fld_uscsi_cdblen (l : Bool) : fld (lp64 l) "uscsi_cdblen" = ⟨"uscsi_cdblen", 40, 1, false⟩ := by
  simp [fld, layoutTable, slot, List.find?]
@[simp] theorem fld_uscsi_rqlen (l : Bool) : fld (lp64 l) "uscsi_rqlen" = ⟨"uscsi_rqlen", 41, 1, false⟩ := by
  simp [fld, layoutTable, slot, List.find?]
@[simp] theorem fld_uscsi_rqstatus (l : Bool) : fld (lp64 l) "uscsi_rqstatus" = ⟨"uscsi_rqstatus", 42, 1, false⟩ := by
  simp [fld, layoutTable, slot, List.find?]
@[simp] theorem fld_uscsi_rqresid (l : Bool) : fld (lp64 l) "uscsi_rqresid" = ⟨"uscsi_rqresid", 43, 1, false⟩ := by
  simp [fld, layoutTable, slot, List.find?]
@[simp] theorem fld_uscsi_rqbuf (l : Bool) : fld (lp64 l) "uscsi_rqbuf" = ⟨"uscsi_rqbuf", 48, 8, false⟩ := by
  simp [fld, layoutTable, slot, List.find?]
@[simp] theorem fld_uscsi_path_instance (l : Bool) : fld (lp64 l) "uscsi_path_instance" = ⟨"uscsi_path_instance", 56, 8, false⟩ := by
  simp [fld, layoutTable, slot, List.find?]

end Solaris

end Verif.Platform
