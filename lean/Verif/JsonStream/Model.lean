import Verif.Json.Model

/-!
# The JSON parser kept between requests (src/Jzon.cpp, src/Controller.cpp)

`Verif.Json.Model` has one text read by a new parser.  The controller makes one parser (src/Controller.cpp:41) and
gives it every request (138-157).  The queues `tokens` and `data` are members of the parser (src/Jzon.h:421-422) and nothing
empties them: `tokenize` appends to them and `assemble` takes from them until it returns.  Here they are part of the state.
Simplifications as in `Verif.Json.Model`; the text is what `read` put into the buffer, up to the first zero byte
(`SetJson(inBuffer)`, Controller.cpp:148).
-/

namespace Lms.JsonStream

open Lms Lms.Json

/-- src/Jzon.h:421-422: the queues of a parser. -/
structure Parser where
  toks : List Tok
  data : List Datum

/-- src/Jzon.cpp:943-945: a new parser. -/
def Parser.init : Parser := ⟨[], []⟩

/-- What `assemble` leaves: its result, the root node and the queues. -/
structure Left where
  ok : Bool
  root : Node
  toks : List Tok
  data : List Datum

/-- src/Jzon.cpp:1059-1237 `assemble`, with what it leaves in the queues; `stack` has its top first and the root at its
bottom (see `Verif.Json.Model`).  Reading from an empty data queue is undefined. -/
def asm (root : Node) (stack : List (Str × Node)) (name : Str) : List Tok → List Datum → Outcome Left
  | [], ds => .ok ⟨true, rootOf root stack, [], ds⟩
  | .unknown :: ts, _ :: ds => .ok ⟨false, rootOf root stack, ts, ds⟩                         -- 1073-1079
  | .unknown :: _, [] => .ub
  | .objBegin :: ts, ds =>                                                                    -- 1080-1101
    match stack, root with
    | [], .obj l => asm root [(name, .obj l)] [] ts ds
    | [], _ => .ok ⟨false, root, ts, ds⟩
    | e :: s, _ => asm root ((name, .obj []) :: e :: s) [] ts ds
  | .arrBegin :: ts, ds =>                                                                    -- 1102-1123
    match stack, root with
    | [], .arr l => asm root [(name, .arr l)] [] ts ds
    | [], _ => .ok ⟨false, root, ts, ds⟩
    | e :: s, _ => asm root ((name, .arr []) :: e :: s) [] ts ds
  | .objEnd :: ts, ds =>                                                                      -- 1124-1167
    match stack with
    | [] => .ok ⟨false, root, ts, ds⟩
    | (_, .obj l) :: [] => asm (.obj l) [] name ts ds
    | (n, .obj l) :: (m, p) :: s =>
      match p with
      | .val _ _ => .ok ⟨false, rootOf root ((m, p) :: s), ts, ds⟩
      | _ => asm root ((m, addTo p n (.obj l)) :: s) name ts ds
    | _ => .ok ⟨false, rootOf root stack, ts, ds⟩
  | .arrEnd :: ts, ds =>
    match stack with
    | [] => .ok ⟨false, root, ts, ds⟩
    | (_, .arr l) :: [] => asm (.arr l) [] name ts ds
    | (n, .arr l) :: (m, p) :: s =>
      match p with
      | .val _ _ => .ok ⟨false, rootOf root ((m, p) :: s), ts, ds⟩
      | _ => asm root ((m, addTo p n (.arr l)) :: s) name ts ds
    | _ => .ok ⟨false, rootOf root stack, ts, ds⟩
  | .value :: .sepName :: ts, d :: ds =>                                                      -- 1170-1183
    if d.1 ≠ .str then .ok ⟨false, rootOf root stack, ts, d :: ds⟩ else asm root stack d.2 ts ds
  | .value :: ts, d :: ds =>                                                                  -- 1184-1228
    match stack, root with
    | [], .val _ _ => asm (valueOf d) [(name, valueOf d)] [] ts ds
    | [], _ => .ok ⟨false, root, ts, d :: ds⟩
    | (m, p) :: s, _ => asm root ((m, addTo p name (valueOf d)) :: s) [] ts ds
  | .value :: _, [] => .ub
  | .sepName :: ts, ds => asm root stack name ts ds                                           -- 1231-1232
  | .sepNode :: ts, ds => asm root stack name ts ds

/-- The tokens and data of one text: src/Jzon.cpp:954-957 `SetJson`, 973-1058 `tokenize`. -/
def lex (text : Str) : List Tok × List Datum := tok none [] (strip (Char.ofNat 0) ⟨false, 0, false⟩ text)

/-- src/Controller.cpp:138-157 `readAndParse` once the text is read: the root is emptied (141) and the parser of the
controller reads the text into it. -/
def request (p : Parser) (text : Str) : Outcome ((Bool × Node) × Parser) :=
  (asm (.obj []) [] [] (p.toks ++ (lex text).1) (p.data ++ (lex text).2)).map
    fun r => ((r.ok, r.root), ⟨r.toks, r.data⟩)

/-- The requests of a run, in order: for each its result and the root node, and the parser at the end.
Calls `request` (src/Controller.cpp:138-157). -/
def requests (p : Parser) : List Str → Outcome (List (Bool × Node) × Parser)
  | [] => .ok ([], p)
  | t :: ts => (request p t).bind fun r => (requests r.2 ts).map fun q => (r.1 :: q.1, q.2)

end Lms.JsonStream
