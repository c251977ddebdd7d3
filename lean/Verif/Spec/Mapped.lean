import Verif.Spec.Disk
/-!
# Specification: callers who are never told of a failure

What the caller of an operation on a disk is told when failures are not reported: the operation is said to be done; a read returns zeros.
-/

namespace Verif.Spec.Disk

/-- The reply as passed on by somebody who does not look at the status. -/
def Op.blind (g : Geometry) (o : Op) : Reply → Reply
  | .failed _ _ _ => match o with | .read _ n => .data (zeros (n * g.size)) | _ => .done
  | r => r

/-- Operations whose replies are passed on like that. -/
def blindOps (g : Geometry) : List Op → Contents → List Reply × Contents
  | [], m => ([], m)
  | o :: os, m =>
    let r := o.run g m
    let rs := blindOps g os r.2
    (o.blind g r.1 :: rs.1, rs.2)

end Verif.Spec.Disk
