/-
  Small helpers of pdfreader/utils.py used when content is written back.
-/
import Verif.Model.Basic

namespace PdfReader

/-- `ESCAPED_CHARS.get(c, c)`, constants.py:51-58, utils.py:31. Characters of a PDF `String` decoded as
latin-1 are bytes. -/
def escapeChar (c : Byte) : Bytes :=
  if c == 10 then b!"\\n"
  else if c == 13 then b!"\\r"
  else if c == 9 then b!"\\t"
  else if c == 8 then b!"\\b"
  else if c == 12 then b!"\\f"
  else if c == 40 then b!"\\("
  else if c == 41 then b!"\\)"
  else if c == 92 then b!"\\\\"
  else [c]

/-- `pdf_escape_string`, utils.py:28-32. -/
def pdfEscape : Bytes → Bytes
  | [] => []
  | c :: s => escapeChar c ++ pdfEscape s

end PdfReader
