import Verif.Common.Outcome

/-!
# The JSON library (Jzon)

Simplifications: a C++ `char` is a Lean `Char` (the code only compares characters with ASCII ones; every byte is some
character, so a statement about all character strings covers all byte strings).  The text of error messages is left out, and
so is memory (nodes left on the stack of a failed parse are leaked).
-/

namespace Lms.Json

open Lms

abbrev Str := List Char

/-- src/Jzon.h:123-129 `ValueType`. -/
inductive VType where
  | null | str | num | bool
  deriving DecidableEq

/-- src/Jzon.h: a tree of nodes.  A `Value` is its type and text (Jzon.cpp:338-394), an `Object` its named children in order,
an `Array` its children. -/
inductive Node where
  | val (t : VType) (s : Str)
  | arr (l : List Node)
  | obj (l : List (Str × Node))

/-! ## Escapes -/

/-- src/Jzon.cpp:454-455: the pairs of `charsUnescaped` and the second characters of `charsEscaped` (the first is always a
backslash). -/
def escapes : List (Char × Char) :=
  [('\\', '\\'), ('/', '/'), ('"', '"'), ('\n', 'n'), ('\t', 't'), (Char.ofNat 8, 'b'), (Char.ofNat 12, 'f'), ('\r', 'r')]

/-- Jzon.cpp:459-472 `getEscaped`: the first match. -/
def getEscaped (c : Char) : Option Char := (escapes.find? fun e => e.1 = c).map (·.2)

/-- Jzon.cpp:473-486 `getUnescaped`. -/
def getUnescaped (c1 c2 : Char) : Option Char := if c1 = '\\' then (escapes.find? fun e => e.2 = c2).map (·.1) else none

/-- Jzon.cpp:488-509 `Value::EscapeString`. -/
def escape : Str → Str
  | [] => []
  | c :: s => match getEscaped c with
    | some e => '\\' :: e :: escape s
    | none => c :: escape s

/-- Jzon.cpp:510-535 `Value::UnescapeString` (no entry of the table has a zero second character, so the last character is
copied). -/
def unescape : Str → Str
  | [] => []
  | [c] => [c]
  | c :: c2 :: s => match getUnescaped c c2 with
    | some u => u :: unescape s
    | none => c :: unescape (c2 :: s)

/-- Jzon.cpp:232-235, 356-360: a value made from a string. -/
def ofString (s : Str) : Node := .val .str (unescape s)

/-! ## Writer -/

/-- src/Jzon.h:59-65 `Format`. -/
structure Format where
  newline : Bool
  spacing : Bool
  useTabs : Bool
  indentSize : Nat

/-- Jzon.cpp:43-49: `spacing` and `newline` strings. -/
def Format.sp (f : Format) : Str := if f.spacing then [' '] else []
def Format.nl (f : Format) : Str := if f.newline then ['\n'] else f.sp

/-- Jzon.cpp:51-61 `GetIndentation`. -/
def Format.indent (f : Format) (level : Nat) : Str :=
  if f.newline then List.replicate (f.indentSize * level) (if f.useTabs then '\t' else ' ') else []

/-- Jzon.cpp:930-940 `writeValue`; 269-275 `ToString`. -/
def writeValue (t : VType) (s : Str) : Str :=
  match t with
  | .str => '"' :: escape s ++ ['"']
  | .null => "null".toList
  | _ => s

mutual
/-- Jzon.cpp:888-929 `writeNode`, `writeObject`, `writeArray`. -/
def write (f : Format) (level : Nat) : Node → Str
  | .val t s => writeValue t s
  | .arr l => '[' :: f.nl ++ writeElems f level true l ++ f.nl ++ f.indent level ++ [']']
  | .obj l => '{' :: f.nl ++ writeMembers f level true l ++ f.nl ++ f.indent level ++ ['}']
/-- Jzon.cpp:918-926. -/
def writeElems (f : Format) (level : Nat) (first : Bool) : List Node → Str
  | [] => []
  | n :: l => (if first then [] else ',' :: f.nl) ++ f.indent (level + 1) ++ write f (level + 1) n ++ writeElems f level false l
/-- Jzon.cpp:901-910. -/
def writeMembers (f : Format) (level : Nat) (first : Bool) : List (Str × Node) → Str
  | [] => []
  | (k, n) :: l => (if first then [] else ',' :: f.nl) ++ f.indent (level + 1) ++ '"' :: k ++ ['"', ':'] ++ f.sp ++
      write f (level + 1) n ++ writeMembers f level false l
end

/-! ## Parser -/

/-- The local variables of `RemoveWhitespace` (src/Jzon.cpp:79-144). -/
structure WS where
  comment : Bool
  multi : Int
  inString : Bool

/-- Jzon.cpp:140. -/
def isBlank (c : Char) : Bool := c = '\n' ∨ c = ' ' ∨ c = '\t' ∨ c = '\r' ∨ c = Char.ofNat 12

/-- Jzon.cpp:131-142: the character is kept or not. -/
def keep (w : WS) (c : Char) : Str :=
  if w.comment ∨ 0 < w.multi then [] else if w.inString then [c] else if isBlank c then [] else [c]

/-- Jzon.cpp:79-144 `RemoveWhitespace`; `c0` is the preceding character of the text. -/
def strip (c0 : Char) (w : WS) : Str → Str
  | [] => []
  | [c1] =>
    let w := if c0 ≠ '\\' ∧ c1 = '"' then { w with inString := !w.inString } else w
    let w := if w.inString = false ∧ c1 = '\n' then { w with comment := false } else w
    keep w c1
  | c1 :: c2 :: r =>
    let w := if c0 ≠ '\\' ∧ c1 = '"' then { w with inString := !w.inString } else w
    if w.inString = false ∧ c1 = '/' ∧ c2 = '*' then strip c2 { w with multi := w.multi + 1 } r
    else if w.inString = false ∧ c1 = '*' ∧ c2 = '/' then strip c2 { w with multi := w.multi - 1 } r
    else if w.inString = false ∧ c1 = '/' ∧ c2 = '/' then strip c2 { w with comment := true } r
    else
      let w := if w.inString = false ∧ c1 = '\n' then { w with comment := false } else w
      keep w c1 ++ strip c1 w (c2 :: r)

/-- src/Jzon.h:398-408 `Token`. -/
inductive Tok where
  | unknown | objBegin | objEnd | arrBegin | arrEnd | sepNode | sepName | value
  deriving DecidableEq

/-- src/Jzon.h:422. -/
abbrev Datum := VType × Str

/-- Jzon.cpp:1309-1312 `isNumber`. -/
def isNumber (c : Char) : Bool := ('0' ≤ c ∧ c ≤ '9') ∨ c = '.' ∨ c = '-'

/-- Jzon.cpp:1266-1307 `interpretValue`; `none` is the result false. -/
def interpret (v : Str) : Option Datum :=
  let up := v.map Char.toUpper
  if up = "NULL".toList then some (.null, [])
  else if up = "TRUE".toList then some (.bool, "true".toList)
  else if up = "FALSE".toList then some (.bool, "false".toList)
  else if v.all isNumber then some (.num, v)
  else none

/-- Jzon.cpp:1031-1045: what a full buffer adds to tokens and data. -/
def flush (buf : Str) : List Tok × List Datum :=
  if buf = [] then ([], [])
  else match interpret buf with
    | some d => ([.value], [d])
    | none => ([.unknown], [(.str, buf)])

/-- Jzon.cpp:985-1022. -/
def structural (c : Char) : Option Tok :=
  if c = '{' then some .objBegin else if c = '}' then some .objEnd
  else if c = '[' then some .arrBegin else if c = ']' then some .arrEnd
  else if c = ',' then some .sepNode else if c = ':' then some .sepName
  else none

/-- Concatenation of token and data queues. -/
def cat (a b : List Tok × List Datum) : List Tok × List Datum := (a.1 ++ b.1, a.2 ++ b.2)

/-- Jzon.cpp:973-1058 `tokenize` and 1239-1264 `readString`.  The first argument is `some (str, c1)` while in `readString`;
its string is queued before the buffered value (1020 before 1033). -/
def tok : Option (Str × Char) → Str → Str → List Tok × List Datum
  | none, _, [] => ([], [])
  | none, buf, c :: r =>
    match structural c with
    | some t => cat (cat (flush buf) ([t], [])) (tok none [] r)
    | none =>
      if c = '"' then tok (some ([], Char.ofNat 0)) buf r
      else if r = [] then flush (buf ++ [c])
      else tok none (buf ++ [c]) r
  | some (s, _), buf, [] => cat (cat ([], [(.str, s)]) (flush buf)) ([.value], [])
  | some (s, c1), buf, c2 :: r =>
    if c1 ≠ '\\' ∧ c2 = '"' then cat (cat (cat ([], [(.str, s)]) (flush buf)) ([.value], [])) (tok none [] r)
    else tok (some (s ++ [c2], c2)) buf r

/-- Jzon.cpp:573-580, 699-706: `Add` to the node on top of the stack; a `Value` takes nothing. -/
def addTo (parent : Node) (name : Str) (n : Node) : Node :=
  match parent with
  | .obj l => .obj (l ++ [(name, n)])
  | .arr l => .arr (l ++ [n])
  | .val t s => .val t s

/-- Jzon.cpp:1202-1209: the value of a datum. -/
def valueOf (d : Datum) : Node := if d.1 = .str then .val .str (unescape d.2) else .val d.1 d.2

/-- The root once the stack is given up: the bottom of the stack is the root node itself. -/
def rootOf (root : Node) (stack : List (Str × Node)) : Node :=
  match stack.getLast? with
  | none => root
  | some e => e.2

/-- Jzon.cpp:1059-1237 `assemble`: the result and the root node.  `stack` has its top first; while it is not empty its bottom
is the root.  Reading from an empty data queue would be undefined. -/
def assemble (root : Node) (stack : List (Str × Node)) (name : Str) : List Tok → List Datum → Outcome (Bool × Node)
  | [], _ => .ok (true, rootOf root stack)
  | .unknown :: _, _ :: _ => .ok (false, rootOf root stack)                                   -- 1073-1079
  | .unknown :: _, [] => .ub
  | .objBegin :: ts, ds =>                                                                    -- 1080-1101
    match stack, root with
    | [], .obj l => assemble root [(name, .obj l)] [] ts ds
    | [], _ => .ok (false, root)
    | e :: s, _ => assemble root ((name, .obj []) :: e :: s) [] ts ds
  | .arrBegin :: ts, ds =>                                                                    -- 1102-1123
    match stack, root with
    | [], .arr l => assemble root [(name, .arr l)] [] ts ds
    | [], _ => .ok (false, root)
    | e :: s, _ => assemble root ((name, .arr []) :: e :: s) [] ts ds
  | .objEnd :: ts, ds =>                                                                      -- 1124-1167
    match stack with
    | [] => .ok (false, root)
    | (n, .obj l) :: [] => assemble (.obj l) [] name ts ds
    | (n, .obj l) :: (m, p) :: s =>
      match p with
      | .val _ _ => .ok (false, rootOf root ((m, p) :: s))
      | _ => assemble root ((m, addTo p n (.obj l)) :: s) name ts ds
    | _ => .ok (false, rootOf root stack)
  | .arrEnd :: ts, ds =>
    match stack with
    | [] => .ok (false, root)
    | (n, .arr l) :: [] => assemble (.arr l) [] name ts ds
    | (n, .arr l) :: (m, p) :: s =>
      match p with
      | .val _ _ => .ok (false, rootOf root ((m, p) :: s))
      | _ => assemble root ((m, addTo p n (.arr l)) :: s) name ts ds
    | _ => .ok (false, rootOf root stack)
  | .value :: .sepName :: ts, d :: ds =>                                                      -- 1170-1183
    if d.1 ≠ .str then .ok (false, rootOf root stack) else assemble root stack d.2 ts ds
  | .value :: ts, d :: ds =>                                                                  -- 1184-1228
    match stack, root with
    | [], .val _ _ => assemble (valueOf d) [(name, valueOf d)] [] ts ds
    | [], _ => .ok (false, root)
    | (m, p) :: s, _ => assemble root ((m, addTo p name (valueOf d)) :: s) [] ts ds
  | .value :: _, [] => .ub
  | .sepName :: ts, ds => assemble root stack name ts ds                                      -- 1231-1232
  | .sepNode :: ts, ds => assemble root stack name ts ds

/-- Jzon.cpp:954-966 `SetJson`, `Parse` into a given node. -/
def parse (root : Node) (text : Str) : Outcome (Bool × Node) :=
  let t := tok none [] (strip (Char.ofNat 0) ⟨false, 0, false⟩ text)
  assemble root [] [] t.1 t.2

/-- Jzon.cpp:196-212 `DetermineType`: the empty node of the type the text announces. -/
def determineType (text : Str) : Node :=
  match strip (Char.ofNat 0) ⟨false, 0, false⟩ text with
  | '{' :: _ => .obj []
  | '[' :: _ => .arr []
  | _ => .val .null []

end Lms.Json
