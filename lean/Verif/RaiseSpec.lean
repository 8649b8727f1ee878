import Verif.Shared

/-! # Which exceptions which method raises (C146) -/

namespace Bf2

variable {F : Type}

/-- What a call may raise on a mesh that was loaded from a file, edited or not. -/
def EditCall.mayRaise : EditCall F → List Err
  | .translate _ => [.valueError, .unboundLocalError, .indexError]
  | .rotate _ => [.valueError, .indexError]
  | .update => [.valueError, .attributeError, .indexError]
  | .center _ _ true => [.valueError, .attributeError, .indexError]
  | .center _ _ false => [.indexError]
  | .reorder _ => [.attributeError, .valueError, .typeError, .indexError, .zeroDivisionError]
  | .merge _ => [.typeError, .valueError, .indexError, .overflowError]
  | .mergeSelf => [.typeError, .valueError, .indexError, .overflowError]

end Bf2
