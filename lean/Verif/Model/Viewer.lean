/-
  The viewer: pdfreader/viewer/simple.py, pdfviewer.py, graphicsstate.py, canvas.py.

  Simplifications: the document is seen as a fixed source of pages, resources and decoded data (`Host`, `PageInfo`), as resolution gives the
  same values again (C31); subclasses with handlers of their own are in Model/Custom.lean; the sign of a negative zero is not printed.
-/
import Verif.Model.Content
import Verif.Model.Objects

namespace PdfReader

mutual
/-- Decidable equality of values (used to evaluate examples only). -/
def decVal : (a b : Val) → Decidable (a = b)
  | .atom a, .atom b => if h : a = b then isTrue (by rw [h]) else isFalse (by intro e; cases e; exact h rfl)
  | .arr a, .arr b =>
    match decVals a b with
    | isTrue h => isTrue (by rw [h])
    | isFalse h => isFalse (by intro e; cases e; exact h rfl)
  | .dict a x, .dict b y => if h : a = b ∧ x = y then isTrue (by rw [h.1, h.2]) else isFalse (by intro e; cases e; exact h ⟨rfl, rfl⟩)
  | .stream a x s, .stream b y t => if h : a = b ∧ x = y ∧ s = t then isTrue (by rw [h.1, h.2.1, h.2.2]) else isFalse (by intro e; cases e; exact h ⟨rfl, rfl, rfl⟩)
  | .atom _, .arr _ | .atom _, .dict _ _ | .atom _, .stream _ _ _ | .arr _, .atom _ | .arr _, .dict _ _ | .arr _, .stream _ _ _
  | .dict _ _, .atom _ | .dict _ _, .arr _ | .dict _ _, .stream _ _ _ | .stream _ _ _, .atom _ | .stream _ _ _, .arr _ | .stream _ _ _, .dict _ _ => isFalse (by intro e; cases e)
/-- The same for lists. -/
def decVals : (a b : List Val) → Decidable (a = b)
  | [], [] => isTrue rfl
  | [], _ :: _ => isFalse (by intro e; cases e)
  | _ :: _, [] => isFalse (by intro e; cases e)
  | x :: xs, y :: ys =>
    match decVal x y, decVals xs ys with
    | isTrue h, isTrue h' => isTrue (by rw [h, h'])
    | isFalse h, _ => isFalse (by intro e; cases e; exact h rfl)
    | _, isFalse h => isFalse (by intro e; cases e; exact h rfl)
end

instance : DecidableEq Val := decVal

/-- ASCII text. -/
def asc (s : Bytes) : Text := s.map (·.toNat)

/-! ### object_to_string -/

/-- `str(n)` -/
def natText (n : Nat) : Text := (Nat.toDigits 10 n).map (·.toNat)

/-- `str(n)` -/
def intText (n : Int) : Text := if n < 0 then 45 :: natText n.natAbs else natText n.natAbs

/-- `str(Decimal)`: the digits and the place of the point; scientific notation for positive exponents and small numbers
(CPython `_pydecimal.Decimal.__str__`). -/
def decimalStr (coeff exp : Int) : Text :=
  let ds := natText coeff.natAbs
  let left : Int := exp + ds.length
  let place : Int := if exp ≤ 0 ∧ left > -6 then left else 1
  let body : Text :=
    if place ≤ 0 then 48 :: 46 :: (List.replicate place.natAbs 48 ++ ds)
    else if (ds.length : Int) ≤ place then ds ++ List.replicate (place - ds.length).toNat 48
    else ds.take place.toNat ++ 46 :: ds.drop place.toNat
  let tail : Text := if left = place then [] else 69 :: ((if 0 ≤ left - place then 43 else 45) :: natText (left - place).natAbs)
  (if coeff < 0 then [45] else []) ++ body ++ tail

/-- `sep.join(parts)` -/
def joinText (sep : Text) : List Text → Text
  | [] => []
  | [t] => t
  | t :: ts => t ++ sep ++ joinText sep ts

/-- `"{}".format(f)` for a filter. Simplification: nothing for containers and byte strings. -/
def formatText : Obj → Text
  | .name n | .hex n | .token n => asc n
  | .null => asc b!"None"
  | .bool b => if b then asc b!"True" else asc b!"False"
  | .int n => intText n
  | .real c e => decimalStr c e
  | _ => []

/-- The alphabet of `base64.b85encode`. -/
def b85Alphabet : Bytes := b!"0123456789ABCDEFGHIJKLMNOPQRSTUVWXYZabcdefghijklmnopqrstuvwxyz!#$%&()*+-;<=>?@^_`{|}~"

/-- The five digits of a 32-bit word. -/
def b85Word (w : Nat) : Bytes :=
  [b85Alphabet.getD (w / 52200625) 0, b85Alphabet.getD (w / 614125 % 85) 0, b85Alphabet.getD (w / 7225 % 85) 0, b85Alphabet.getD (w / 85 % 85) 0,
   b85Alphabet.getD (w % 85) 0]

/-- `base64.b85encode` -/
def b85encode : Bytes → Bytes
  | [] => []
  | [a] => (b85Word (a.toNat * 16777216)).take 2
  | [a, b] => (b85Word (a.toNat * 16777216 + b.toNat * 65536)).take 3
  | [a, b, c] => (b85Word (a.toNat * 16777216 + b.toNat * 65536 + c.toNat * 256)).take 4
  | a :: b :: c :: d :: r => b85Word (a.toNat * 16777216 + b.toNat * 65536 + c.toNat * 256 + d.toNat) ++ b85encode r

/-- `InlineImage.Filter` and the like, types/content.py:32-71: the long key, or the short one if that is missing or false. -/
def imageEntry (d : List (Bytes × Obj)) (long short : Bytes) : Obj :=
  match dictGet d long with
  | some o => if truthy o then o else (dictGet d short).getD .null
  | none => (dictGet d short).getD .null

/-- The filters as `object_to_string` sees them, simple.py:47. -/
def filterList (o : Obj) : List Obj :=
  match o with
  | .arr fs => fs
  | o => [o]

/-- `f in ascii_filters`, simple.py:18, 49 -/
def isAsciiFilter : Obj → Bool
  | .name n | .hex n | .token n => (n ∈ [b!"ASCIIHexDecode", b!"AHx", b!"ASCII85Decode", b!"A85"] : Bool)
  | _ => false

/-- The data and filters of an inline image in the text of a page, simple.py:47-58. -/
def imageTail (d : List (Bytes × Obj)) (data : Bytes) (entries : Text) : Res Text :=
  match filterList (imageEntry d b!"Filter" b!"F") with
  | [] => .error .indexError
  | f :: fs =>
    let filters := if isAsciiFilter f then f :: fs else .name b!"ASCII85Decode" :: f :: fs
    let content := if isAsciiFilter f then data else b85encode data ++ b!"~>"
    if content.all (fun c => decide (c.toNat < 128)) then
      .ok (asc b!"\nBI\n" ++ entries ++ asc b!" /Filter [" ++ filters.flatMap (fun f => asc b!" /" ++ formatText f ++ asc b!" ") ++ asc b!"]" ++
        asc b!"\nID\n" ++ asc content ++ asc b!"\nEI")
    else .error .valueError

mutual
/-- `object_to_string`, simple.py:20-66, for what the parser delivers. -/
def printObj : Obj → Res Text
  | .null => .ok (asc b!"null")
  | .bool b => .ok (if b then asc b!"true" else asc b!"false")
  | .name n => .ok (47 :: asc n)
  | .hex s => .ok (asc s)
  | .token t => .ok (asc t)
  | .int n => .ok (intText n)
  | .real c e => .ok (decimalStr c e)
  | .arr xs => (printObjs xs).map fun ts => asc b!"[" ++ joinText [32] ts ++ asc b!"]"
  | .dict es => (printEnts es).map fun ts => asc b!"<<" ++ joinText [32] ts ++ asc b!">>"
  | .str s => .ok (asc s)
  | .image d data =>
    match printImageEnts d with
    | .error e => .error e
    | .ok ts => imageTail d data (joinText [32] ts)
  | .stream _ _ => .error .valueError
  | .ref _ _ => .error .valueError
/-- The elements of an array. -/
def printObjs : List Obj → Res (List Text)
  | [] => .ok []
  | x :: xs =>
    match printObj x with
    | .error e => .error e
    | .ok t => (printObjs xs).map fun ts => t :: ts
/-- The entries of a dictionary. -/
def printEnts : List (Bytes × Obj) → Res (List Text)
  | [] => .ok []
  | (k, v) :: es =>
    match printObj v with
    | .error e => .error e
    | .ok t => (printEnts es).map fun ts => (47 :: asc k ++ 32 :: t) :: ts
/-- The entries of an inline image, but for its filters. -/
def printImageEnts : List (Bytes × Obj) → Res (List Text)
  | [] => .ok []
  | (k, v) :: es =>
    if k = b!"F" ∨ k = b!"Filter" then printImageEnts es
    else
      match printObj v with
      | .error e => .error e
      | .ok t => (printImageEnts es).map fun ts => (47 :: asc k ++ 32 :: t) :: ts
end

/-- An operand after the handlers have seen it: text-showing operators replace strings by decoded text. -/
inductive Arg where
  | obj (o : Obj)
  | text (t : Text)
  | list (xs : List (Text ⊕ Obj))
  | props (es : List (Bytes × (Text ⊕ Obj)))

/-- A decoded string, or an object. -/
def printPart : Text ⊕ Obj → Res Text
  | .inl t => .ok t
  | .inr o => printObj o

/-- `[f(x) for x in xs]` -/
def resMap {α β : Type} (f : α → Res β) : List α → Res (List β)
  | [] => .ok []
  | x :: xs =>
    match f x with
    | .error e => .error e
    | .ok y => (resMap f xs).map fun ys => y :: ys

/-- `object_to_string` of an operand. -/
def printArg : Arg → Res Text
  | .obj o => printObj o
  | .text t => .ok t
  | .list xs => (resMap printPart xs).map fun ts => asc b!"[" ++ joinText [32] ts ++ asc b!"]"
  | .props es => (resMap (fun e => (printPart e.2).map fun t => 47 :: asc e.1 ++ 32 :: t) es).map fun ts => asc b!"<<" ++ joinText [32] ts ++ asc b!">>"

/-- `object_to_string` of an operator, simple.py:38-40. -/
def printOp (name : Bytes) (args : List Arg) : Res Text :=
  (resMap printArg args).map fun ts => 10 :: joinText [32] ts ++ 32 :: asc name

/-- `pdf_escape_string`, utils.py:27-31 with constants.py:43-50. -/
def escapeText : Text → Text
  | [] => []
  | c :: s =>
    (if c = 10 then asc b!"\\n" else if c = 13 then asc b!"\\r" else if c = 9 then asc b!"\\t" else if c = 8 then asc b!"\\b" else if c = 12 then asc b!"\\f"
      else if c = 40 then asc b!"\\(" else if c = 41 then asc b!"\\)" else if c = 92 then asc b!"\\\\" else [c]) ++ escapeText s

/-- `"({})".format(pdf_escape_string(s))` -/
def quoted (t : Text) : Text := 40 :: (escapeText t ++ [41])

/-! ### State -/

/-- SimpleCanvas, canvas.py. `inline` also holds operators named `inline_image`. -/
structure Canvas where
  images : List (Bytes × Val) := []
  forms : List (Bytes × Canvas) := []
  text : Text := []
  inline : List Content := []
  strings : List Text := []

/-- The attributes of a GraphicsState which are set, graphicsstate.py:8-65. -/
abbrev GState := List (Bytes × Val)

/-- Resources, resources.py. -/
abbrev Resources := List (Bytes × Category)

/-- What a page gets from the document: decoders of fonts, the values of a dictionary, the decoded data of a stream, and the resources of
a form (`Resources.from_page(current_page, [xobj.Resources])`). -/
structure Host where
  decode : Val → Obj → Res Text
  items : List (Bytes × Obj) → Res (List (Bytes × Val))
  data : Val → Res Bytes
  formResources : Val → Res Resources

/-- The state of rendering: the graphics state stack, its top first; the canvas; open brackets; decoders by font name. -/
structure Paint where
  gss : List GState := []
  canvas : Canvas := {}
  brackets : List Bytes := []
  decoders : List (Option Bytes × Option Val) := []

/-- `GraphicsStateStack.state` creates a state on an empty stack, graphicsstate.py:85-89. -/
def ensureState (gss : List GState) : List GState := if gss = [] then [[]] else gss

mutual
/-- Can the value be copied with `deepcopy`? Dictionaries and streams of a document cannot (their `__getattr__` asks for `_cache` before
it is set, and they refer to the open file). -/
def copyable : Val → Bool
  | .atom _ => true
  | .arr vs => copyables vs
  | .dict _ _ => false
  | .stream _ _ _ => false
/-- All of them. -/
def copyables : List Val → Bool
  | [] => true
  | v :: vs => copyable v && copyables vs
end

/-- `save_state`, graphicsstate.py:73-75. -/
def saveState : DM Paint Unit := fun p =>
  match ensureState p.gss with
  | [] => (.ok (), p)
  | g :: gs =>
    if g.all fun e => copyable e.2 then (.ok (), { p with gss := g :: g :: gs })
    else (.error .recursion, { p with gss := g :: gs })

/-- `restore_state`, graphicsstate.py:77-82. -/
def restoreState : DM Paint Unit := fun p => (.ok (), { p with gss := p.gss.tail })

/-- `self.gss.state.k = v` -/
def setField (k : Bytes) (v : Val) : DM Paint Unit := fun p =>
  match ensureState p.gss with
  | [] => (.ok (), p)
  | g :: gs => (.ok (), { p with gss := assocSet k v g :: gs })

/-- `args[0]` -/
def arg0 (args : List Obj) : Res Obj :=
  match args with
  | [] => .error .indexError
  | o :: _ => .ok o

/-- An object as a key of a dictionary with names as keys: names, hexadecimal strings and tokens are `str`; other hashable objects are
never found. -/
def strKey : Obj → Res (Option Bytes)
  | .name n | .hex n | .token n => .ok (some n)
  | o => if hashable o then .ok none else .error .typeError

/-- `resources.XObject.get(name)`, `resources.ExtGState.get(name)`: a category given as an array is a set, without `get`. -/
def lookupResource (res : Resources) (category : Bytes) (key : Option Bytes) : Res (Option Val) :=
  match assoc category res with
  | some (.named es) => .ok (key.bind fun k => assoc k es)
  | some (.procs (_ :: _)) => .error .attributeError
  | some (.procs []) => .ok none
  | none => .ok none

/-- `if name in resources.Font: resources.Font[name]`, simple.py:93-94. -/
def lookupFont (res : Resources) (key : Option Bytes) : Res (Option Val) :=
  match assoc b!"Font" res with
  | some (.named es) => .ok (key.bind fun k => assoc k es)
  | some (.procs ns) => match key with | some k => if k ∈ ns then .error .typeError else .ok none | none => .ok none
  | none => .ok none

/-- `gss.state.font_name` as a key, graphicsstate.py:55-58. -/
def fontKey (g : GState) : Res (Option Bytes) :=
  match assoc b!"Font" g with
  | none => .ok none
  | some v =>
    if truthyVal v then
      match v with
      | .atom (.arr (o :: _)) => strKey o
      | .arr (.atom o :: _) => strKey o
      | .arr _ => .error .typeError
      | .atom (.name (c :: _)) | .atom (.hex (c :: _)) | .atom (.token (c :: _)) => .ok (some [c])
      | .atom (.str _) => .ok none
      | .dict _ _ => .error .keyError
      | .stream _ _ _ => .error .keyError
      | .atom _ => .error .typeError
    else .ok none

/-- `bytes.fromhex` of the digits of a hexadecimal string. -/
def hexBytes (digits : Bytes) : Res Bytes := fallbackHex.ahxBytes digits

/-- `default_decoder`, decoder.py:185: Latin-1. -/
def decodeDefault : Obj → Res Text
  | .str s => .ok (asc s)
  | .hex s => (hexBytes s).map asc
  | _ => .error .typeError

/-- `decode_string`, simple.py:87-105. -/
def decodeString (h : Host) (res : Resources) (o : Obj) : DM Paint Text := fun p =>
  let p : Paint := { p with gss := ensureState p.gss }
  match fontKey (p.gss.headD []) with
  | .error e => (.error e, p)
  | .ok k =>
    match assoc k p.decoders with
    | some d => (match d with | some f => h.decode f o | none => decodeDefault o, p)
    | none =>
      match lookupFont res k with
      | .error e => (.error e, p)
      | .ok d => (match d with | some f => h.decode f o | none => decodeDefault o, { p with decoders := (k, d) :: p.decoders })

/-- `canvas.strings.append(s)` -/
def addString (t : Text) : DM Paint Unit := fun p => (.ok (), { p with canvas := { p.canvas with strings := p.canvas.strings ++ [t] } })

/-- `canvas.text_content += t` -/
def addText (r : Res Text) : DM Paint Unit := fun p =>
  match r with
  | .error e => (.error e, p)
  | .ok t => (.ok (), { p with canvas := { p.canvas with text := p.canvas.text ++ t } })

/-- `on_Tj`, simple.py:135-141. -/
def showOne (h : Host) (res : Resources) (args : List Obj) : DM Paint (List Arg) :=
  (DM.pure (arg0 args)).bind fun o => (decodeString h res o).bind fun t => (addString t).bind fun _ => DM.pure (.ok [.text (quoted t)])

/-- The loop of `on_TJ`, simple.py:147-151, over a list. -/
def showEach (h : Host) (res : Resources) : List Obj → DM Paint (List (Text ⊕ Obj))
  | [] => DM.pure (.ok [])
  | o :: os =>
    match o with
    | .str _ | .hex _ => (decodeString h res o).bind fun t => (addString t).bind fun _ => (showEach h res os).bind fun r => DM.pure (.ok (.inl (quoted t) :: r))
    | o => (showEach h res os).bind fun r => DM.pure (.ok (.inr o :: r))

/-- `on_TJ`, simple.py:145-151. Items of strings are numbers or characters; a dictionary has no item 0. -/
def showMany (h : Host) (res : Resources) (args : List Obj) : DM Paint (List Arg) :=
  (DM.pure (arg0 args)).bind fun o =>
    match o with
    | .arr xs => (showEach h res xs).bind fun r => DM.pure (.ok (.list r :: args.tail.map .obj))
    | .str _ | .hex _ | .name _ | .token _ => DM.pure (.ok (args.map .obj))
    | .dict [] => DM.pure (.ok (args.map .obj))
    | .dict _ => DM.pure (.error .keyError)
    | .stream _ _ => DM.pure (.error .keyError)
    | _ => DM.pure (.error .typeError)

/-- `props['Contents'] = t` -/
def putContents (es : List (Bytes × Obj)) (t : Text) : List (Bytes × (Text ⊕ Obj)) :=
  es.map fun e => if e.1 = b!"Contents" then (e.1, .inl t) else (e.1, .inr e.2)

/-- `_decode_prop_contents`, simple.py:162-170. -/
def decodeProps (h : Host) (res : Resources) (args : List Obj) : DM Paint (List Arg) :=
  match args with
  | [tag, .dict es] =>
    match dictGet es b!"Contents" with
    | some (.str s) => (decodeString h res (.str s)).bind fun t => DM.pure (.ok [.obj tag, .props (putContents es t)])
    | _ => DM.pure (.ok (args.map .obj))
  | [_, _] => DM.pure (.ok (args.map .obj))
  | _ => DM.pure (.error .valueError)

/-- `GraphicsState._fields`, graphicsstate.py:50. -/
def stateFields : List Bytes :=
  [b!"CTM", b!"LW", b!"LC", b!"LJ", b!"ML", b!"D", b!"RI", b!"I", b!"Font", b!"Tc", b!"Tw", b!"Tz", b!"TL", b!"Tr", b!"Ts"]

/-- `GraphicsState.update`, graphicsstate.py:61-65. -/
def updateState (items : List (Bytes × Val)) : List Bytes → GState → GState
  | [], g => g
  | f :: fs, g =>
    match assoc f items with
    | none => updateState items fs g
    | some (.atom .null) => updateState items fs g
    | some v => updateState items fs (assocSet f v g)

/-- `on_gs`, pdfviewer.py:175-182. `GraphicsState(**state)` refuses the names of its parameter and of its read-only property. -/
def applyGs (h : Host) (res : Resources) (args : List Obj) : DM Paint Unit :=
  (DM.pure (arg0 args)).bind fun o => (DM.pure (strKey o)).bind fun k => (DM.pure (lookupResource res b!"ExtGState" k)).bind fun v =>
    match v with
    | none => DM.pure (.ok ())
    | some v =>
      if truthyVal v then fun p =>
        let p : Paint := { p with gss := ensureState p.gss }
        match v with
        | .dict _ es =>
          match h.items es with
          | .error e => (.error e, p)
          | .ok items =>
            if (assoc b!"self" items).isSome then (.error .typeError, p)
            else if (assoc b!"font_name" items).isSome then (.error .attributeError, p)
            else
              match p.gss with
              | [] => (.ok (), p)
              | g :: gs => (.ok (), { p with gss := updateState items stateFields g :: gs })
        | _ => (.error .typeError, p)
      else DM.pure (.ok ())

/-- `on_BT`, simple.py:118-122: only BT is ever put on the stack. -/
def beginText : DM Paint Unit := fun p => (.ok (), { p with brackets := b!"BT" :: (if p.brackets.head? = some b!"BT" then p.brackets.tail else p.brackets) })

/-- `on_ET`, simple.py:124-128 -/
def endText : DM Paint Unit := fun p => (.ok (), { p with brackets := if p.brackets.head? = some b!"BT" then p.brackets.tail else p.brackets })

/-- Arguments stay as they are. -/
def keep (args : List Obj) (m : DM Paint Unit) : DM Paint (List Arg) := m.bind fun _ => DM.pure (.ok (args.map .obj))

/-- `operators_aliases`, simple.py:73-75 -/
def aliasOf (name : Bytes) : Bytes :=
  if name = b!"'" then b!"apostrophe" else if name = b!"\"" then b!"quotation" else if name = b!"T*" then b!"Tstar" else name

/-- The handlers `on_…` of ContextualViewer and TextOperatorsMixin, looked up by name; `onDo` is that of the page viewer. Without a handler
nothing happens. -/
def onOperator (h : Host) (res : Resources) (onDo : List Obj → DM Paint Unit) (name : Bytes) (args : List Obj) : DM Paint (List Arg) :=
  let first (k : Bytes) := keep args ((DM.pure (arg0 args)).bind fun o => setField k (.atom o))
  if name = b!"q" then keep args saveState
  else if name = b!"Q" then keep args restoreState
  else if name = b!"cm" then keep args (setField b!"CTM" (.atom (.arr args)))
  else if name = b!"w" then first b!"LW"
  else if name = b!"J" then first b!"LC"
  else if name = b!"j" then first b!"LJ"
  else if name = b!"M" then first b!"ML"
  else if name = b!"d" then keep args (setField b!"D" (.atom (.arr args)))
  else if name = b!"ri" then first b!"RI"
  else if name = b!"i" then first b!"FL"
  else if name = b!"gs" then keep args (applyGs h res args)
  else if name = b!"BT" then keep args beginText
  else if name = b!"ET" then keep args endText
  else if name = b!"Tf" then keep args (setField b!"Font" (.atom (.arr args)))
  else if name = b!"Tj" ∨ name = b!"apostrophe" then showOne h res args
  else if name = b!"TJ" ∨ name = b!"quotation" then showMany h res args
  else if name = b!"DP" ∨ name = b!"BDC" then decodeProps h res args
  else if name = b!"Do" then keep args (onDo args)
  else if name = b!"inline_image" then
    keep args fun p => (.ok (), { p with canvas := { p.canvas with inline := p.canvas.inline ++ [.op name args] } })
  else if name = b!"document_load" then DM.pure (.error .typeError)
  else keep args (DM.pure (.ok ()))

/-- `notify`, pdfviewer.py:93-112, for an operator. The names `before_navigate`, `after_navigate`, `before_handler` and `after_handler` are
taken for handlers of operators `navigate` and `handler`; `onNavigate` is the former for the page viewer. -/
def notifyOp (h : Host) (res : Resources) (onDo : List Obj → DM Paint Unit) (onNavigate : DM Paint Unit) (name : Bytes) (args : List Obj) : DM Paint Unit :=
  (if aliasOf name = b!"Do" then saveState else DM.pure (.ok ())).bind fun _ =>
    (onOperator h res onDo (aliasOf name) args).bind fun shown =>
      (if aliasOf name = b!"Do" then restoreState else if aliasOf name = b!"navigate" then onNavigate
        else if aliasOf name = b!"handler" then addText (printOp name shown) else DM.pure (.ok ())).bind fun _ =>
        addText (printOp name shown)

/-- `notify` for an inline image: `on_inline_image`, simple.py:115-116. -/
def notifyImage (d : List (Bytes × Obj)) (data : Bytes) : DM Paint Unit := fun p =>
  addText (printObj (.image d data)) { p with canvas := { p.canvas with inline := p.canvas.inline ++ [.image d data] } }

/-- The loop of `render`, pdfviewer.py:114-120, over what the parser yields. -/
def notifyAll (h : Host) (res : Resources) (onDo : List Obj → DM Paint Unit) (onNavigate : DM Paint Unit) : List Content → DM Paint Unit
  | [] => DM.pure (.ok ())
  | .op name args :: cs => (notifyOp h res onDo onNavigate name args).bind fun _ => notifyAll h res onDo onNavigate cs
  | .image d data :: cs => (notifyImage d data).bind fun _ => notifyAll h res onDo onNavigate cs

/-- `render` of a ContextualViewer, pdfviewer.py:114-120: the parser's exception comes after its items. -/
def renderStream (h : Host) (res : Resources) (onDo : List Obj → DM Paint Unit) (onNavigate : DM Paint Unit) (stream : Bytes) : DM Paint Unit :=
  (notifyAll h res onDo onNavigate (contentObjects stream).1).bind fun _ =>
    match (contentObjects stream).2 with
    | none => DM.pure (.ok ())
    | some e => DM.pure (.error e)

/-- `isinstance(xobj, Image)` and `isinstance(xobj, Form)` -/
def isStreamOf (cls : Bytes) : Val → Bool
  | .stream c _ _ => c == cls
  | _ => false

/-- FormViewer, simple.py:231-234: a canvas, brackets and decoders of its own, and the graphics state stack of the page. -/
def renderForm (h : Host) (res : Resources) (stream : Bytes) (name : Bytes) : DM Paint Unit := fun p =>
  match renderStream h res (fun _ => DM.pure (.ok ())) (DM.pure (.ok ())) stream { gss := p.gss } with
  | (.error e, q) => (.error e, { p with gss := q.gss })
  | (.ok _, q) => (.ok (), { p with gss := q.gss, canvas := { p.canvas with forms := assocSet name q.canvas p.canvas.forms } })

/-- `on_Do`, simple.py:216-228, for an XObject found. A stream without data counts as missing. -/
def paintXObject (h : Host) (name : Bytes) (x : Val) : DM Paint Unit := fun p =>
  if truthyVal x then
    if (assoc name p.canvas.forms).isSome then (.ok (), p)
    else if isStreamOf b!"Image" x then (.ok (), { p with canvas := { p.canvas with images := assocSet name x p.canvas.images } })
    else if isStreamOf b!"Form" x then
      match h.formResources x with
      | .error e => (.error e, p)
      | .ok r =>
        match h.data x with
        | .error e => (.error e, p)
        | .ok s => renderForm h r s name p
    else (.ok (), p)
  else (.ok (), p)

/-- `on_Do`, simple.py:213-228. -/
def onDoPage (h : Host) (res : Resources) (args : List Obj) : DM Paint Unit :=
  (DM.pure (arg0 args)).bind fun o => (DM.pure (strKey o)).bind fun k => (DM.pure (lookupResource res b!"XObject" k)).bind fun v =>
    match k, v with
    | some name, some x => paintXObject h name x
    | _, _ => DM.pure (.ok ())

/-- `after_navigate` as an operator, simple.py:208-211 with pdfviewer.py:305-317: the page is the same, so are its resources. -/
def resetPaint : DM Paint Unit := fun _ => (.ok (), {})

/-- Rendering of a page. -/
def renderPage (h : Host) (res : Resources) (stream : Bytes) : DM Paint Unit := renderStream h res (onDoPage h res) resetPaint stream

/-! ### Navigation -/

/-- `.filtered` of an element of Contents. Simplification: an exception of an earlier element, if that is a dictionary, comes first. -/
def partData (h : Host) (v : Val) : Res Bytes :=
  match v with
  | .stream _ _ _ => h.data v
  | .dict _ _ => .error .typeError
  | _ => .error .attributeError

/-- The content stream of a page, pdfviewer.py:310-317. -/
def contentsData (h : Host) (v : Val) : Res Bytes :=
  match v with
  | .stream _ _ _ => h.data v
  | .arr vs => (resMap (partData h) vs).map List.flatten
  | .dict _ [] => .ok []
  | .dict _ _ => .error .attributeError
  | .atom (.name []) | .atom (.hex []) | .atom (.str []) => .ok []
  | .atom (.name _) | .atom (.hex _) | .atom (.str _) => .error .attributeError
  | .atom _ => .error .typeError

/-- A page of the document: how it reads fonts and streams, its resources (`Resources.from_page`) and its Contents. -/
structure PageInfo where
  host : Host
  resources : Res Resources
  contents : Res Val

/-- The pages which `doc.pages()` yields, and the exception at its end. -/
structure DocPages where
  pages : List PageInfo
  fails : Option Exc := none

/-- SimplePDFViewer. Canvases are objects: `heap` has all which were created, `canvas` is the number of the current one; `known` is
`_pages`, `cache` is `_canvas_cache`. -/
structure Viewer where
  heap : List Canvas
  canvas : Nat
  number : Int
  gss : List GState := []
  brackets : List Bytes := []
  decoders : List (Option Bytes × Option Val) := []
  res : Resources := []
  stream : Bytes := []
  known : List (Int × PageInfo) := []
  cache : List (Int × Nat) := []

/-- `next(islice(doc.pages(), n - 1, n))`, pdfviewer.py:246-250; `islice` refuses negative numbers with ValueError.
Simplification: an exception raised before `islice` is called counts as the end of `doc.pages()`. -/
def fetchPage (doc : DocPages) (n : Int) : Res PageInfo :=
  if n < 1 then .error .valueError
  else
    match doc.pages[(n - 1).toNat]? with
    | some p => .ok p
    | none => .error (doc.fails.getD .pageDoesNotExist)

/-- `after_navigate`, simple.py:208-211, pdfviewer.py:305-317. -/
def afterNavigate (pg : PageInfo) : DM Viewer Unit := fun v =>
  let v : Viewer := { v with decoders := [], brackets := [], heap := v.heap.set v.canvas {}, gss := [] }
  match pg.resources with
  | .error e => (.error e, v)
  | .ok r =>
    let v : Viewer := { v with res := r }
    match pg.contents with
    | .error e => (.error e, v)
    | .ok c =>
      match contentsData pg.host c with
      | .error e => (.error e, v)
      | .ok s => (.ok (), { v with stream := s })

/-- `navigate`, pdfviewer.py:235-253. -/
def Viewer.navigate (doc : DocPages) (n : Int) : DM Viewer Unit := fun v =>
  match assoc n v.known with
  | some pg => afterNavigate pg { v with number := n }
  | none =>
    match fetchPage doc n with
    | .error e => (.error e, v)
    | .ok pg => afterNavigate pg { v with known := (n, pg) :: v.known, number := n }

/-- `next` and `prev`, pdfviewer.py:255-263, 277-284. -/
def Viewer.next (doc : DocPages) : DM Viewer Unit := fun v => v.navigate doc (v.number + 1)
/-- -/
def Viewer.prev (doc : DocPages) : DM Viewer Unit := fun v => v.navigate doc (v.number - 1)

/-- The viewer after `PDFViewer.__init__`, pdfviewer.py:218-223, 300-303, simple.py:193-195. -/
def openViewer (doc : DocPages) : Res Viewer :=
  match Viewer.navigate doc 1 { heap := [{}], canvas := 0, number := 1 } with
  | (.error e, _) => .error e
  | (.ok _, v) => .ok v

/-- `self.canvas` -/
def Viewer.current (v : Viewer) : Canvas := v.heap.getD v.canvas {}

/-- Rendering of the current stream onto the current canvas. -/
def Viewer.paint (v : Viewer) (pg : PageInfo) : Res Unit × Viewer :=
  match renderPage pg.host v.res v.stream { gss := v.gss, canvas := v.current, brackets := v.brackets, decoders := v.decoders } with
  | (r, p) => (r, { v with heap := v.heap.set v.canvas p.canvas, gss := p.gss, brackets := p.brackets, decoders := p.decoders })

/-- `render`, simple.py:202-206. -/
def Viewer.render : DM Viewer Unit := fun v =>
  match assoc v.number v.cache with
  | some i => (.ok (), { v with heap := v.heap ++ [v.heap.getD i {}], canvas := v.heap.length })
  | none =>
    match assoc v.number v.known with
    | none => (.error .keyError, v)
    | some pg =>
      match v.paint pg with
      | (.error e, v) => (.error e, v)
      | (.ok _, v) => (.ok (), { v with cache := (v.number, v.heap.length) :: v.cache, heap := v.heap ++ [v.current] })

/-- `CanvasIterator.__next__`, pdfviewer.py:25-34: `none` is StopIteration; the result is the number of the copied canvas. -/
def canvasNext (doc : DocPages) : DM (Bool × Viewer) (Option Nat) := fun (last, v) =>
  if last then (.ok none, (last, v))
  else
    match v.render with
    | (.error e, v) => (.error e, (last, v))
    | (.ok _, v) =>
      let i := v.heap.length
      let v : Viewer := { v with heap := v.heap ++ [v.current] }
      match v.next doc with
      | (.error .pageDoesNotExist, v) => (.ok (some i), (true, v))
      | (.error e, v) => (.error e, (last, v))
      | (.ok _, v) => (.ok (some i), (last, v))

/-- `list(viewer)`: the canvases, and the exception which ends the iteration. `fuel` bounds the number of steps. -/
def canvasAll (doc : DocPages) : Nat → Bool × Viewer → List Nat × Option Exc × Viewer
  | 0, s => ([], some .diverges, s.2)
  | fuel + 1, s =>
    match canvasNext doc s with
    | (.error e, s) => ([], some e, s.2)
    | (.ok none, s) => ([], none, s.2)
    | (.ok (some i), s) =>
      match canvasAll doc fuel s with
      | (is, e, v) => (i :: is, e, v)

end PdfReader
