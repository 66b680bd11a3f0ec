import Verif.FilterEvents.Forms
import Verif.Sdp.Model

/-!
# C78: the event `addSession` of the receiver (src/modules/receiver/SourceManager.cpp:292-361)
-/

namespace Lms.FilterEvents

open Lms Lms.Json Lms.Control

/-- SourceManager.cpp:331-336: one entry of `subsessions`. -/
def subOf (n : Node) : R Sdp.Sub :=
  (get n "medium".toList).bind fun a => (toStr a).bind fun medium =>
  (get n "codec".toList).bind fun a => (toStr a).bind fun codec =>
  (get n "bandwidth".toList).bind fun a => (toInt a).bind fun bandwidth =>
  (get n "timeStampFrequency".toList).bind fun a => (toInt a).bind fun freq =>
  (get n "port".toList).bind fun a => (toInt a).bind fun port =>
  (get n "channels".toList).bind fun a => (toInt a).bind fun channels =>
  .ok ⟨medium, codec, bandwidth, freq, port, channels⟩

/-- SourceManager.cpp:330-346: the loop; a codec without payload number ends it with `return false`. -/
def subsLoop (sdp : Str) : List Node → R (Option Str)
  | [] => .ok (some sdp)
  | n :: l =>
    (subOf n).bind fun s =>
    match Sdp.payloadOf s.codec with
    | none => .ok none
    | some pt => subsLoop (sdp ++ Sdp.subText pt s) l

/-- SourceManager.cpp:309-318: the id of the session.  `used`: the ids in `sessionMap`; `fresh`: the first random id made by
`utils::randomIdGenerator` (294, 316) that is not used. -/
def sessionId (used : Str → Bool) (fresh : Str) (p : Node) : R (Option Str) :=
  (optIf p "id" isStr toText).bind fun o =>
  match o with
  | some (.text s) => if used s then .ok none else .ok (some s)
  | _ => .ok (some fresh)

/-- src/modules/receiver/SourceManager.cpp:320-351: what the session is made from: keepAlive, id, progName, uri (of a session by URL,
320-324), the description (of a session by text, 325-348). -/
def makeSession (keep : Option Val) (id : Str) (p : Node) : Res :=
  (hasAll p ["uri", "progName"]).bind fun h =>
  if h then
    (take p "progName" toText).bind fun prog =>
    (take p "uri" toText).bind fun uri => .ok (some [keep, some (.text id), prog, uri, none])
  else
    (has p "subsessions".toList).bind fun h =>
    if !h then .ok none
    else
      (get p "subsessions".toList).bind fun n =>
      match n with
      | .arr l =>
        (subsLoop (Sdp.sessionText id "this is a test".toList) l).bind fun t =>
        .ok (t.map fun t => [keep, some (.text id), none, none, some (.text t)])
      | _ => .ok none

/-- src/modules/receiver/SourceManager.cpp:292-361 `addSessionEvent` up to the creation of the session. -/
def addSession (used : Str → Bool) (fresh : Str) : Option Node → Res
  | none => .ok none
  | some p =>
    (optIf p "keepAlive" isBool toBool).bind fun keep =>
    (sessionId used fresh p).bind fun id =>
    match id with
    | none => .ok none
    | some id => makeSession keep id p

/-! ## The meaning -/

/-- An entry with all its six members, each of a type that can be used. -/
def readSub (n : Node) : Option Sdp.Sub :=
  match (member "medium" n).bind textOf, (member "codec" n).bind textOf, (member "bandwidth" n).bind intOf,
    (member "timeStampFrequency" n).bind intOf, (member "port" n).bind intOf, (member "channels" n).bind intOf with
  | some m, some c, some b, some f, some p, some ch => some ⟨m, c, b, f, p, ch⟩
  | _, _, _, _, _, _ => none

/-- The entry is usable and its codec is one of the six known. -/
def GoodSub (n : Node) (s : Sdp.Sub) : Prop :=
  readSub n = some s ∧ s.codec ∈ ["pcmu".toList, "opus".toList, "pcm".toList, "MPEG4-GENERIC".toList, "mp3".toList, "H264".toList]

/-- Entries and what they ask for, one by one. -/
inductive AllGood : List Node → List Sdp.Sub → Prop where
  | nil : AllGood [] []
  | cons {n : Node} {s : Sdp.Sub} {l : List Node} {subs : List Sdp.Sub} : GoodSub n s → AllGood l subs → AllGood (n :: l) (s :: subs)

/-- What becomes of the entries of a session by text: all are good and described, or the first that is not decides. -/
inductive Entries (id : Str) : List Node → Verdict → Prop where
  | all {l : List Node} {subs : List Sdp.Sub} {t : Str} {keep : Option Val} : AllGood l subs → Sdp.describe id subs = some t →
      Entries id l (.takes [keep, some (.text id), none, none, some (.text t)])
  | unreadable {a b : List Node} {subs : List Sdp.Sub} {n : Node} : AllGood a subs → readSub n = none →
      Entries id (a ++ n :: b) .ends
  | unknown {a b : List Node} {subs : List Sdp.Sub} {n : Node} {s : Sdp.Sub} : AllGood a subs → readSub n = some s →
      ¬ GoodSub n s → Entries id (a ++ n :: b) .refused

theorem get_dies {n : Node} {k : String} (h : member k n = none) : get n k.toList = .dies := by
  cases n with
  | val t s => rfl
  | arr l => rfl
  | obj l =>
    simp only [member] at h
    have h2 := find_lookup l k.toList
    rw [h] at h2
    unfold Control.get
    cases hf : l.find? fun e => decide (e.1 = k.toList) with
    | none => simp only [hf]
    | some e => rw [hf] at h2; simp at h2

theorem get_member (n : Node) (k : String) : get n k.toList = match member k n with | some m => .ok m | none => .dies := by
  cases h : member k n with
  | none => exact get_dies h
  | some m =>
    cases n with
    | val t s => simp [member] at h
    | arr l => simp [member] at h
    | obj l => exact get_obj l k m h

theorem text_step {α : Type} (n : Node) (k : String) (f : Str → R α) :
    ((get n k.toList).bind fun a => (toStr a).bind f) = match (member k n).bind textOf with | some s => f s | none => .dies := by
  rw [get_member]
  cases member k n with
  | none => rfl
  | some m =>
    rw [bind_ok, toStr_eq]
    simp only [Option.bind_some]
    cases textOf m <;> rfl

theorem int_step {α : Type} (n : Node) (k : String) (f : Int → R α) :
    ((get n k.toList).bind fun a => (toInt a).bind f) = match (member k n).bind intOf with | some s => f s | none => .dies := by
  rw [get_member]
  cases member k n with
  | none => rfl
  | some m =>
    rw [bind_ok, toInt_eq]
    simp only [Option.bind_some]
    cases intOf m <;> rfl

theorem subOf_eq (n : Node) : subOf n = match readSub n with | some s => .ok s | none => .dies := by
  unfold subOf readSub
  rw [text_step]
  cases (member "medium" n).bind textOf with
  | none => rfl
  | some m =>
    simp only []
    rw [text_step]
    cases (member "codec" n).bind textOf with
    | none => rfl
    | some c =>
      simp only []
      rw [int_step]
      cases (member "bandwidth" n).bind intOf with
      | none => rfl
      | some b =>
        simp only []
        rw [int_step]
        cases (member "timeStampFrequency" n).bind intOf with
        | none => rfl
        | some f =>
          simp only []
          rw [int_step]
          cases (member "port" n).bind intOf with
          | none => rfl
          | some p =>
            simp only []
            rw [int_step]
            cases (member "channels" n).bind intOf with
            | none => rfl
            | some ch => rfl

theorem payload_known (c : Str) : (Sdp.payloadOf c).isSome = true ↔
    c ∈ ["pcmu".toList, "opus".toList, "pcm".toList, "MPEG4-GENERIC".toList, "mp3".toList, "H264".toList] := by
  unfold Sdp.payloadOf
  simp only [List.mem_cons, List.not_mem_nil, or_false]
  split
  · rename_i h
    simp only [Option.isSome_some, true_iff]
    rcases h with h | h | h | h
    · exact .inl h
    · exact .inr (.inl h)
    · exact .inr (.inr (.inl h))
    · exact .inr (.inr (.inr (.inl h)))
  · rename_i h
    split
    · rename_i h2; simp [h2]
    · rename_i h2
      split
      · rename_i h3; simp [h3]
      · rename_i h3
        simp only [Option.isSome_none, Bool.false_eq_true, false_iff]
        rintro (h' | h' | h' | h' | h' | h')
        · exact h (.inl h')
        · exact h (.inr (.inl h'))
        · exact h (.inr (.inr (.inl h')))
        · exact h (.inr (.inr (.inr h')))
        · exact h2 h'
        · exact h3 h'

/-- What the loop finds. -/
theorem loop_cases (sdp : Str) (l : List Node) :
    (∃ subs t, AllGood l subs ∧ Sdp.subsText subs = some t ∧ subsLoop sdp l = .ok (some (sdp ++ t))) ∨
    (∃ a b subs n, l = a ++ n :: b ∧ AllGood a subs ∧ readSub n = none ∧ subsLoop sdp l = .dies) ∨
    (∃ a b subs n s, l = a ++ n :: b ∧ AllGood a subs ∧ readSub n = some s ∧ ¬ GoodSub n s ∧ subsLoop sdp l = .ok none) := by
  induction l generalizing sdp with
  | nil => exact .inl ⟨[], [], .nil, rfl, by simp [subsLoop]⟩
  | cons n l ih =>
    cases hr : readSub n with
    | none => exact .inr (.inl ⟨[], l, [], n, rfl, .nil, hr, by simp only [subsLoop, subOf_eq, hr, bind_dies]⟩)
    | some s =>
      cases hp : Sdp.payloadOf s.codec with
      | none =>
        refine .inr (.inr ⟨[], l, [], n, s, rfl, .nil, hr, ?_, by simp only [subsLoop, subOf_eq, hr, bind_ok, hp]⟩)
        intro h
        have := (payload_known s.codec).2 h.2
        rw [hp] at this
        exact absurd this (by simp)
      | some pt =>
        have hg : GoodSub n s := ⟨hr, (payload_known s.codec).1 (by rw [hp]; rfl)⟩
        have hl : subsLoop sdp (n :: l) = subsLoop (sdp ++ Sdp.subText pt s) l := by
          simp only [subsLoop, subOf_eq, hr, bind_ok, hp]
        rw [hl]
        rcases ih (sdp ++ Sdp.subText pt s) with ⟨subs, t, h1, h2, h3⟩ | ⟨a, b, subs, m, h1, h2, h3, h4⟩ | ⟨a, b, subs, m, s', h1, h2, h3, h4, h5⟩
        · exact .inl ⟨s :: subs, Sdp.subText pt s ++ t, .cons hg h1, by simp [Sdp.subsText, hp, h2], by rw [h3, List.append_assoc]⟩
        · exact .inr (.inl ⟨n :: a, b, s :: subs, m, by rw [h1]; rfl, .cons hg h2, h3, h4⟩)
        · exact .inr (.inr ⟨n :: a, b, s :: subs, m, s', by rw [h1]; rfl, .cons hg h2, h3, h4, h5⟩)

/-- The id asked for, if a text is given. -/
def askedId (p : Node) : Option Str :=
  match member "id" p with
  | some (.val .str s) => some s
  | _ => none

/-- Whether the session is to be kept alive, if a boolean is given. -/
def askedKeep (p : Node) : Option Val :=
  match member "keepAlive" p with
  | some (.val .bool s) => some (.bool (decide (s = "true".toList)))
  | _ => none

theorem keep_eq (l : List (Str × Node)) : optIf (.obj l) "keepAlive" isBool toBool = .ok (askedKeep (.obj l)) := by
  rw [mayBe_bool]
  unfold readPar Par.ends Par.read Par.given mayBe askedKeep
  cases h : member "keepAlive" (.obj l) with
  | none => simp
  | some n =>
    cases n with
    | val t s => cases t <;> simp [Ty.proper, Ty.value]
    | arr l => simp [Ty.proper]
    | obj l => simp [Ty.proper]

theorem sessionId_eq (used : Str → Bool) (fresh : Str) (l : List (Str × Node)) : sessionId used fresh (.obj l) =
    .ok (match askedId (.obj l) with | some s => if used s then none else some s | none => some fresh) := by
  unfold sessionId
  rw [mayBe_text]
  unfold readPar Par.ends Par.read Par.given mayBe askedId
  cases h : member "id" (.obj l) with
  | none => simp
  | some n =>
    cases n with
    | val t s =>
      cases t with
      | str =>
        simp only [Ty.proper, Ty.value, textOf]
        cases hu : used s <;> simp [hu, textOf, Ty.value]
      | _ => simp [Ty.proper]
    | arr l => simp [Ty.proper]
    | obj l => simp [Ty.proper]

/-- **C78**, `addSession`: an id in use is refused; otherwise `uri` and `progName` ask for a session by URL, which any values
do, `subsessions` for one by text; with neither the event is refused.  The id is the one asked for or a new one. -/
theorem addSession_read (used : Str → Bool) (fresh : Str) (l : List (Str × Node)) :
    let p := Node.obj l
    let id := (askedId p).getD fresh
    ((∃ s, askedId p = some s ∧ used s = true) → addSession used fresh (some p) = .ok none) ∧
    ((∀ s, askedId p = some s → used s = false) →
      (∀ u g, member "uri" p = some u → member "progName" p = some g →
        (∀ u' g', textOf u = some u' → textOf g = some g' →
          addSession used fresh (some p) = .ok (some [askedKeep p, some (.text id), some (.text g'), some (.text u'), none])) ∧
        (textOf u = none ∨ textOf g = none → addSession used fresh (some p) = .dies)) ∧
      ((member "uri" p = none ∨ member "progName" p = none) →
        (∀ a, member "subsessions" p = some (.arr a) → ∃ v, Entries id a v ∧ addSession used fresh (some p) = v.res ∧
          ∀ args, v = .takes args → args.head? = some (askedKeep p)) ∧
        ((∀ a, member "subsessions" p ≠ some (.arr a)) → addSession used fresh (some p) = .ok none))) := by
  intro p id
  have e : ∀ o, (match askedId p with | some s => if used s then none else some s | none => some fresh) = o →
      addSession used fresh (some p) = match o with | none => .ok none | some id => makeSession (askedKeep p) id p := by
    intro o ho
    simp only [addSession, p, keep_eq, sessionId_eq, bind_ok]
    rw [show (match askedId (.obj l) with | some s => if used s then none else some s | none => some fresh) = o from ho]
  refine ⟨?_, ?_⟩
  · rintro ⟨s, h1, h2⟩
    exact e none (by rw [h1]; simp only [h2, if_true])
  · intro hfree
    have hid : (match askedId p with | some s => if used s then none else some s | none => some fresh) = some id := by
      simp only [id]
      cases h : askedId p with
      | none => rfl
      | some s => simp only [hfree s h, Bool.false_eq_true, if_false, Option.getD_some]
    have e := e _ hid
    simp only [] at e
    generalize id = id at e ⊢
    unfold makeSession at e
    simp only [p, hasAll_all, bind_ok, List.all_cons, List.all_nil, Bool.and_true] at e
    generalize hst : (Sdp.sessionText id "this is a test".toList) = st at e
    refine ⟨?_, ?_⟩
    · intro u g hu hg
      have hu1 : (member "uri" (.obj l)).isSome = true := by rw [show member "uri" (.obj l) = some u from hu]; rfl
      have hg1 : (member "progName" (.obj l)).isSome = true := by rw [show member "progName" (.obj l) = some g from hg]; rfl
      have t1 : take (.obj l) "progName" toText = match textOf g with | some s => .ok (some (.text s)) | none => .dies := by
        unfold take toText
        rw [get_obj l _ g hg, bind_ok, toStr_eq]
        cases textOf g <;> rfl
      have t2 : take (.obj l) "uri" toText = match textOf u with | some s => .ok (some (.text s)) | none => .dies := by
        unfold take toText
        rw [get_obj l _ u hu, bind_ok, toStr_eq]
        cases textOf u <;> rfl
      rw [hu1, hg1] at e
      simp only [Bool.and_self, if_true, t1, t2] at e
      refine ⟨?_, ?_⟩
      · intro u' g' h1 h2
        rw [h1, h2] at e
        exact e
      · intro h
        show addSession used fresh (some (.obj l)) = .dies
        rw [e]
        cases hg' : textOf g with
        | none => rfl
        | some g' =>
          simp only [bind_ok]
          cases hu' : textOf u with
          | none => rfl
          | some u' => simp [hg', hu'] at h
    · intro h
      have hb : ((member "uri" (.obj l)).isSome && (member "progName" (.obj l)).isSome) = false := by
        rcases h with h | h
        · rw [show member "uri" (.obj l) = none from h]; rfl
        · rw [show member "progName" (.obj l) = none from h]; simp
      rw [hb] at e
      simp only [Bool.false_eq_true, if_false, has_obj, bind_ok] at e
      refine ⟨?_, ?_⟩
      · intro a ha
        have h1 : (member "subsessions" (.obj l)).isSome = true := by rw [show member "subsessions" (.obj l) = some _ from ha]; rfl
        rw [h1] at e
        simp only [Bool.not_true, Bool.false_eq_true, if_false] at e
        rw [get_obj l _ _ ha, bind_ok] at e
        rcases loop_cases st a with ⟨subs, t, h1, h2, h3⟩ | ⟨a', b, subs, m, h1, h2, h3, h4⟩ |
          ⟨a', b, subs, m, s', h1, h2, h3, h4, h5⟩
        · refine ⟨.takes [askedKeep p, some (.text id), none, none, some (.text (st ++ t))],
            .all h1 (by unfold Sdp.describe; rw [h2, hst]; rfl), ?_, ?_⟩
          · show addSession used fresh (some (.obj l)) = _
            rw [e]
            simp only []
            rw [h3]; rfl
          · intro args h; cases h; rfl
        · refine ⟨.ends, ?_, ?_, ?_⟩
          · rw [h1]; exact .unreadable h2 h3
          · show addSession used fresh (some (.obj l)) = _
            rw [e]
            simp only []
            rw [h4]; rfl
          · intro args h; cases h
        · refine ⟨.refused, ?_, ?_, ?_⟩
          · rw [h1]; exact .unknown h2 h3 h4
          · show addSession used fresh (some (.obj l)) = _
            rw [e]
            simp only []
            rw [h5]; rfl
          · intro args h; cases h
      · intro hn
        show addSession used fresh (some (.obj l)) = _
        rw [e]
        cases hs : member "subsessions" (.obj l) with
        | none => rfl
        | some n =>
          simp only [Option.isSome_some, Bool.not_true, Bool.false_eq_true, if_false]
          rw [get_obj l _ n hs, bind_ok]
          cases n with
          | arr a => exact absurd hs (hn a)
          | val t s => rfl
          | obj l => rfl

end Lms.FilterEvents
