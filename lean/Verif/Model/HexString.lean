/-
  The methods of hexadecimal strings, pdfreader/types/native.py:27-39. `as_int` is `hexNat` (Model/CMap.lean), `to_bytes` is `hexBytes`
  (Model/Viewer.lean).
-/
import Verif.Model.Viewer

namespace PdfReader

/-- `HexString.to_string`, native.py:34-35, with DEFAULT_ENCODING = "latin-1" (constants.py:1). -/
def hexToString (d : Bytes) : Res Text :=
  match hexBytes d with
  | .error e => .error e
  | .ok s => latin1Decode s

end PdfReader
