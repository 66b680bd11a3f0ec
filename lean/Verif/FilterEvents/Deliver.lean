import Verif.Control.Report
import Verif.FilterEvents.Session

/-!
# C78: delivery of events, and C79: the calls of the filters' interface
-/

namespace Lms.FilterEvents

open Lms Lms.Json Lms.Control

theorem names_nodup (add : Option Node → Res) (k : Kind) : ((eventMap add k).map (·.1)).Nodup := by
  cases k <;> simp [eventMap]

theorem find_of_mem {β : Type} (l : List (String × β)) (hn : (l.map (·.1)).Nodup) (e : String × β) (he : e ∈ l) :
    l.find? (fun x => decide (x.1.toList = e.1.toList)) = some e := by
  induction l with
  | nil => simp at he
  | cons x l ih =>
    rw [List.map_cons, List.nodup_cons] at hn
    rw [List.find?_cons]
    rcases List.mem_cons.1 he with h | h
    · subst h; simp
    · have hne : x.1 ≠ e.1 := fun hx => hn.1 (hx ▸ List.mem_map_of_mem (f := (·.1)) h)
      have : decide (x.1.toList = e.1.toList) = false := by
        rw [decide_eq_false_iff_not]
        exact fun hx => hne (String.toList_inj.1 hx)
      rw [this]
      exact ih hn.2 h

theorem action_eq (l : List (Str × Node)) : filterAction (.obj l) =
    match actionOf (.obj l) with | some a => .ok a | none => .dies := by
  unfold filterAction actionOf
  rw [has_obj, bind_ok]
  cases h : member "action" (.obj l) with
  | none => rfl
  | some n =>
    rw [Option.isSome_some, if_pos rfl, get_obj l _ n h, bind_ok, toStr_eq]; rfl

theorem params_eq (l : List (Str × Node)) : eventParams (.obj l) = .ok (member "params" (.obj l)) := by
  unfold eventParams
  rw [has_obj, bind_ok]
  cases h : member "params" (.obj l) with
  | none => rfl
  | some n => rw [Option.isSome_some, if_pos rfl, get_obj l _ n h, bind_ok]

theorem execute_known (add : Option Node → Res) (k : Kind) (l : List (Str × Node)) (e : String × (Option Node → Res))
    (he : e ∈ eventMap add k) (hn : e.1 ≠ "") (ha : actionOf (.obj l) = some e.1.toList) :
    execute add k (.obj l) = (e.2 (member "params" (.obj l))).bind fun r =>
      .ok (match r with | none => .refused e.1.toList | some args => .called e.1.toList args) := by
  unfold execute
  rw [action_eq, ha, params_eq]
  simp only [bind_ok]
  have hne : e.1.toList ≠ [] := fun h => hn (String.toList_inj.1 (h.trans (by decide)))
  rw [if_neg hne, find_of_mem _ (names_nodup add k) e he]
  rfl

/-- **C78**: an event with an action of the table is done with as the table says of its parameters. -/
theorem event_by_table (add : Option Node → Res) (k : Kind) (l : List (Str × Node)) (name : String) (f : Form) (hf : (name, f) ∈ forms k)
    (ha : actionOf (.obj l) = some name.toList) :
    execute add k (.obj l) = (f.read (member "params" (.obj l))).taken name.toList := by
  obtain ⟨hd, h1, h2⟩ := event_read add k name f hf (member "params" (.obj l))
  have hn : name ≠ "" := by
    cases k <;> simp only [forms, List.mem_cons, List.not_mem_nil, or_false, Prod.mk.injEq] at hf
    case audioMixer => rcases hf with ⟨rfl, _⟩ | ⟨rfl, _⟩ | ⟨rfl, _⟩ | ⟨rfl, _⟩ <;> decide
    case transmitter => rcases hf with ⟨rfl, _⟩ | ⟨rfl, _⟩ | ⟨rfl, _⟩ <;> decide
    case videoMixer => rcases hf with ⟨rfl, _⟩ | ⟨rfl, _⟩ <;> decide
    case videoSplitter => rcases hf with ⟨rfl, _⟩ | ⟨rfl, _⟩ <;> decide
    case dasher => rcases hf with ⟨rfl, _⟩ | ⟨rfl, _⟩ <;> decide
    all_goals (obtain ⟨rfl, _⟩ := hf; decide)
  rw [execute_known add k l (name, hd) h1 hn ha]
  simp only [res_of_meets h2]
  cases f.read (member "params" (.obj l)) <;> rfl

/-- **C78**: the table and the other actions are all there is: any other action, or none, does nothing. -/
theorem unknown_action (add : Option Node → Res) (k : Kind) (l : List (Str × Node)) (a : Str) (ha : actionOf (.obj l) = some a)
    (h1 : ∀ e ∈ forms k, e.1.toList ≠ a) (h2 : ∀ e ∈ otherActions k, e.toList ≠ a) : execute add k (.obj l) = .ok .unknown := by
  unfold execute
  rw [action_eq, ha, params_eq]
  simp only [bind_ok]
  by_cases he : a = []
  · rw [if_pos he]
  · rw [if_neg he]
    have : (eventMap add k).find? (fun e => decide (e.1.toList = a)) = none := by
      rw [List.find?_eq_none]
      intro e hm
      rw [decide_eq_true_eq]
      have hmem : e.1 ∈ (forms k).map (·.1) ∨ e.1 ∈ otherActions k := by
        cases k <;> simp only [eventMap, List.mem_cons, List.not_mem_nil, or_false] at hm
        case audioMixer => rcases hm with rfl | rfl | rfl | rfl | rfl <;> decide
        case transmitter => rcases hm with rfl | rfl | rfl <;> decide
        case videoEncoder => rcases hm with rfl | rfl | rfl <;> decide
        case videoMixer => rcases hm with rfl | rfl <;> decide
        case receiver => rcases hm with rfl | rfl <;> simp [forms, otherActions]
        case videoSplitter => rcases hm with rfl | rfl <;> decide
        case dasher => rcases hm with rfl | rfl <;> decide
        all_goals (obtain rfl := hm; decide)
      rcases hmem with h | h
      · obtain ⟨x, hx, hx2⟩ := List.mem_map.1 h
        rw [← hx2]; exact h1 x hx
      · exact h2 e.1 h
    rw [this]

/-- An action that cannot be taken for a text ends the process. -/
theorem action_no_text (add : Option Node → Res) (k : Kind) (l : List (Str × Node)) (ha : actionOf (.obj l) = none) :
    execute add k (.obj l) = .dies := by
  unfold execute
  rw [action_eq, ha]; rfl

/-- Events without parameters of their own are carried out whatever comes with them. -/
theorem no_params_needed (add : Option Node → Res) (k : Kind) (l : List (Str × Node)) (name : String)
    (h : (k, name) ∈ [(Kind.audioMixer, "muteMaster"), (.videoEncoder, "forceIntra")]) (ha : actionOf (.obj l) = some name.toList) :
    execute add k (.obj l) = .ok (.called name.toList []) := by
  simp only [List.mem_cons, List.not_mem_nil, or_false, Prod.mk.injEq] at h
  rcases h with ⟨rfl, rfl⟩ | ⟨rfl, rfl⟩
  · rw [execute_known add .audioMixer l ("muteMaster", noParams) (by simp [eventMap]) (by decide) ha]; rfl
  · rw [execute_known add .videoEncoder l ("forceIntra", noParams) (by simp [eventMap]) (by decide) ha]; rfl

/-- The verdict depends on the named members only: neither others nor the order of members matter. -/
theorem only_named_members (f : Form) (l l' : List (Str × Node)) (h : ∀ q ∈ f.pars, member q.name (.obj l) = member q.name (.obj l')) :
    f.read (some (.obj l)) = f.read (some (.obj l')) := by
  have hg : ∀ q ∈ f.pars, q.given (.obj l) = q.given (.obj l') := fun q hq => by unfold Par.given; rw [h q hq]
  have h1 : f.pars.any (·.refuses (.obj l)) = f.pars.any (·.refuses (.obj l')) := by
    rw [Bool.eq_iff_iff, List.any_eq_true, List.any_eq_true]
    constructor <;> rintro ⟨q, hq, hr⟩ <;> refine ⟨q, hq, ?_⟩ <;> unfold Par.refuses at hr ⊢
    · rw [← h q hq]; exact hr
    · rw [h q hq]; exact hr
  have h2 : f.pars.any (·.ends (.obj l)) = f.pars.any (·.ends (.obj l')) := by
    rw [Bool.eq_iff_iff, List.any_eq_true, List.any_eq_true]
    constructor <;> rintro ⟨q, hq, hr⟩ <;> refine ⟨q, hq, ?_⟩ <;> unfold Par.ends at hr ⊢
    · rw [← hg q hq]; exact hr
    · rw [hg q hq]; exact hr
  have h3 : f.pars.map (·.read (.obj l)) = f.pars.map (·.read (.obj l')) :=
    List.map_congr_left fun q hq => by unfold Par.read; rw [hg q hq]
  simp only [Form.read, h1, h2, h3]

/-- **C78**: with every parameter there is of its JSON type and those needed there, the process goes on: the event is carried out with
these values, or refused because they do not fit together. -/
theorem well_typed (f : Form) (l : List (Str × Node))
    (hneed : ∀ q ∈ f.pars, q.need = true → (member q.name (.obj l)).isSome = true)
    (hty : ∀ q ∈ f.pars, ∀ n, member q.name (.obj l) = some n →
      q.ty.proper n = true ∧ (∀ a, n = .arr a → ∀ m ∈ a, isNum m = true)) :
    f.read (some (.obj l)) = match f.whole (f.pars.map fun q => (member q.name (.obj l)).bind q.ty.value) with
      | some args => .takes args
      | none => .refused := by
  have hval : ∀ (q : Par), q ∈ f.pars → ∀ n, member q.name (.obj l) = some n → (q.ty.value n).isSome = true := by
    intro q hq n hn
    obtain ⟨h1, h2⟩ := hty q hq n hn
    by_cases ht : q.ty = .ints
    · rw [ht] at h1 ⊢
      cases n with
      | val t s => cases t <;> simp [Ty.proper] at h1
      | obj l => simp [Ty.proper] at h1
      | arr a =>
        replace h2 := h2 a rfl
        show ((allSome (a.map intOf)).map Val.ints).isSome = true
        rw [Option.isSome_map]
        clear h1 hn
        induction a with
        | nil => rfl
        | cons m a ih =>
          obtain ⟨z, hz⟩ := num_int m (h2 m (by simp))
          rw [List.map_cons, hz, allSome, Option.isSome_map]
          exact ih fun x hx => h2 x (by simp [hx])
    · exact proper_value q.ty ht n h1
  have hg : ∀ q ∈ f.pars, q.given (.obj l) = member q.name (.obj l) := by
    intro q hq
    unfold Par.given
    cases hn : member q.name (.obj l) with
    | none => rfl
    | some n => simp [(hty q hq n hn).1]
  have h1 : f.pars.any (·.refuses (.obj l)) = false := by
    rw [List.any_eq_false]
    intro q hq
    unfold Par.refuses
    cases hn : member q.name (.obj l) with
    | none =>
      intro hc
      have := hneed q hq hc
      rw [hn] at this; simp at this
    | some n => simp [(hty q hq n hn).1]
  have h2 : f.pars.any (·.ends (.obj l)) = false := by
    rw [List.any_eq_false]
    intro q hq
    unfold Par.ends
    rw [hg q hq]
    cases hn : member q.name (.obj l) with
    | none => simp
    | some n =>
      obtain ⟨v, hv⟩ := Option.isSome_iff_exists.1 (hval q hq n hn)
      simp [hv]
  have h3 : f.pars.map (·.read (.obj l)) = f.pars.map fun q => (member q.name (.obj l)).bind q.ty.value :=
    List.map_congr_left fun q hq => by unfold Par.read; rw [hg q hq]
  simp only [Form.read, h1, h2, h3, Bool.false_eq_true, if_false]
  cases f.whole (f.pars.map fun q => (member q.name (.obj l)).bind q.ty.value) <;> rfl

/-- **C78**: events of receivers, demultiplexers, capture devices, transmitters and DASH filters are carried out at once, whatever
their delay; those of all other filters wait in the queue. -/
theorem delay_ignored (add : Option Node → Res) (k : Kind) (e : Node) (d d' : Int) :
    (k ∈ [.receiver, .demuxer, .capture, .transmitter, .dasher] → pushEvent add k e d = pushEvent add k e d' ∧
      pushEvent add k e d = (execute add k e).bind fun t => .ok (.executed t)) ∧
    (k ∉ [.receiver, .demuxer, .capture, .transmitter, .dasher] → pushEvent add k e d = .ok (.queued e d)) := by
  refine ⟨fun h => ?_, fun h => ?_⟩ <;> cases k <;> simp [pushEvent, Kind.atOnce] at h ⊢

/-- An event of the table, with members out of order and one that is not in the table. -/
example (add : Option Node → Res) :
    execute add .dasher (.obj [("params".toList, .obj [("other".toList, .val .null []), ("bitrate".toList, .val .num "7".toList),
      ("id".toList, .val .num "3".toList)]), ("action".toList, .val .str "setBitrate".toList)]) =
    .ok (.called "setBitrate".toList [some (.int 3), some (.int 7)]) := by
  refine (event_by_table add .dasher _ "setBitrate" _ (List.mem_of_getElem? (i := 1) rfl) (by decide +kernel)).trans ?_
  exact congrArg (Verdict.taken _) (by decide +kernel : _ = Verdict.takes [some (.int 3), some (.int 7)])

/-- An action of another filter. -/
example (add : Option Node → Res) : execute add .videoDecoder (.obj [("action".toList, .val .str "configure".toList)]) = .ok .unknown :=
  unknown_action add .videoDecoder _ "configure".toList (by decide +kernel) (by simp [forms]) (by simp [otherActions])

/-- An entry that meets `GoodSub`, and an event made with it. -/
example : GoodSub (.obj [("medium".toList, .val .str "video".toList), ("codec".toList, .val .str "H264".toList),
    ("bandwidth".toList, .val .num "5000".toList), ("timeStampFrequency".toList, .val .num "90000".toList),
    ("port".toList, .val .num "5004".toList), ("channels".toList, .val .null [])]) ⟨"video".toList, "H264".toList, 5000, 90000, 5004, 0⟩ := by
  refine ⟨by decide +kernel, by decide +kernel⟩

end Lms.FilterEvents
