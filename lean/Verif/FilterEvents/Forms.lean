import Verif.FilterEvents.Props

/-!
# C78: events with conditions on several parameters
-/

namespace Lms.FilterEvents

open Lms Lms.Json Lms.Control

/-- Numbers are never fatal where other types are ignored. -/
theorem mayBe_int_ok (l : List (Str × Node)) (k : String) : ∃ o, readPar (.obj l) (mayBe k .int) = .ok o ∧
    (o.isSome = (member k (.obj l)).any isNum) := by
  unfold readPar Par.ends Par.read Par.given mayBe
  cases h : member k (.obj l) with
  | none => exact ⟨none, by simp, rfl⟩
  | some n =>
    by_cases hp : Ty.int.proper n = true
    · have hv := proper_value .int (by decide) n hp
      obtain ⟨v, hv⟩ := Option.isSome_iff_exists.1 hv
      exact ⟨some v, by simp [hp, hv], by simp [isNum_proper, hp]⟩
    · exact ⟨none, by simp [hp], by simp [isNum_proper, hp]⟩

theorem any_isSome {o : Option Node} {t : Node → Bool} (h : o.any t = true) : o.isSome = true := by
  cases o <;> simp_all

theorem take_mayBe {l : List (Str × Node)} {k : String} (h : (member k (.obj l)).any isNum = true) :
    take (.obj l) k toNum = readPar (.obj l) (mayBe k .int) := by
  obtain ⟨n, hn⟩ := Option.isSome_iff_exists.1 (any_isSome h)
  rw [hn] at h
  have hp : Ty.int.proper n = true := by rw [← isNum_proper]; exact h
  rw [must_num (by rw [hn]; rfl)]
  unfold readPar Par.ends Par.read Par.given mayBe must
  simp [hn, hp]

theorem mixer_form (p : Option Node) : Meets (mixerConfigure p)
    (Form.read ⟨[mayBe "width" .int, mayBe "height" .int, mayBe "fps" .int], .refused, bothSizes⟩ p) := by
  refine by_form _ _ rfl (fun n h => ?_) (fun l => ?_) p
  · simp only [mixerConfigure, hasAll_bad h, bind_dies]
  · simp only [mixerConfigure, hasAll_all, bind_ok, List.all_cons, List.all_nil, mayBe_refuses, List.any_cons, List.any_nil,
      Bool.or_self, Bool.false_eq_true, if_false, readAll, bind_assoc, Bool.and_true, mayBe_num]
    obtain ⟨w, hw, hw'⟩ := mayBe_int_ok l "width"
    obtain ⟨hh, hh1, hh'⟩ := mayBe_int_ok l "height"
    obtain ⟨f, hf, _⟩ := mayBe_int_ok l "fps"
    simp only [hw, hh1, hf, bind_ok]
    have key : ((if ((member "width" (.obj l)).isSome && (member "height" (.obj l)).isSome) = true
        then isAll (.obj l) isNum ["width", "height"] else .ok false) : R Bool) = .ok (w.isSome && hh.isSome) := by
      by_cases h : ((member "width" (.obj l)).isSome && (member "height" (.obj l)).isSome) = true
      · rw [if_pos h]
        rw [Bool.and_eq_true] at h
        rw [isAll_eq]
        · simp [hw', hh']
        · intro k hk
          rcases List.mem_cons.1 hk with rfl | hk
          · exact h.1
          · rcases List.mem_cons.1 hk with rfl | hk
            · exact h.2
            · simp at hk
      · rw [if_neg h, hw', hh']
        congr 1
        cases ha : (member "width" (.obj l)).any isNum with
        | false => rfl
        | true =>
          cases hb : (member "height" (.obj l)).any isNum with
          | false => rfl
          | true => exact absurd (by rw [any_isSome ha, any_isSome hb]; rfl) h
    rw [key, bind_ok]
    cases hs : w.isSome && hh.isSome with
    | true =>
      rw [Bool.and_eq_true] at hs
      rw [if_pos rfl, take_mayBe (by rw [← hw']; exact hs.1), take_mayBe (by rw [← hh']; exact hs.2), hw, hh1]
      obtain ⟨a, rfl⟩ := Option.isSome_iff_exists.1 hs.1
      obtain ⟨b, rfl⟩ := Option.isSome_iff_exists.1 hs.2
      rfl
    | false =>
      rw [if_neg (by simp), bind_ok]
      cases w with
      | none => rfl
      | some a =>
        cases hh with
        | none => rfl
        | some b => simp at hs

theorem read_int_shape (l : List (Str × Node)) (q : Par) (hq : q.ty = .int) : q.read (.obj l) = none ∨ ∃ z, q.read (.obj l) = some (.int z) := by
  unfold Par.read
  cases q.given (.obj l) with
  | none => left; rfl
  | some n =>
    rw [hq]
    show (intOf n).map Val.int = none ∨ ∃ z, (intOf n).map Val.int = some (.int z)
    cases intOf n with
    | none => left; rfl
    | some z => right; exact ⟨z, rfl⟩

theorem resampler_form (p : Option Node) : Meets (resamplerConfigure p)
    (Form.read ⟨[may "width" .int, may "height" .int, may "fps" .int, may "pixelFormat" .int], .refused, pixelInRange⟩ p) := by
  refine by_form _ _ rfl (fun n h => ?_) (fun l => ?_) p
  · simp only [resamplerConfigure, opt_bad h, bind_dies]
  · simp only [resamplerConfigure, may_num, may_refuses, List.any_cons, List.any_nil,
      Bool.or_self, Bool.false_eq_true, if_false, readAll, bind_assoc, bind_ok]
    congr 1; funext w; congr 1; funext h; congr 1; funext f
    unfold readPar
    cases (may "pixelFormat" .int).ends (.obj l) with
    | true => rfl
    | false =>
      simp only [Bool.false_eq_true, if_false, bind_ok]
      rcases read_int_shape l (may "pixelFormat" .int) rfl with h | ⟨z, h⟩
      · rw [h]; rfl
      · rw [h]
        simp only [pixelInRange, List.getLast?_cons_cons, List.getLast?_singleton]
        by_cases hz : z < -1 ∨ z > 5
        · rw [if_pos hz, if_neg (by omega)]
        · rw [if_neg hz, if_pos (by omega)]

theorem configCrop_form (p : Option Node) : Meets (configCrop p)
    (Form.read ⟨[mustBe "id" .int, mustBe "width" .int, mustBe "height" .int, mustBe "x" .int, mustBe "y" .int,
        may "degree" .int], .refused, some⟩ p) := by
  refine by_form _ _ rfl (fun n h => ?_) (fun l => ?_) p
  · simp only [configCrop, hasAll_bad h, bind_dies]
  · simp only [configCrop, hasAll_all, bind_ok]
    have key : ((if (["id", "width", "height", "x", "y"].all fun k => (member k (.obj l)).isSome) = true
        then isAll (.obj l) isNum ["id", "width", "height", "x", "y"] else .ok false) : R Bool) =
        .ok (["id", "width", "height", "x", "y"].all fun k => (member k (.obj l)).any Ty.int.proper) := by
      by_cases h : (["id", "width", "height", "x", "y"].all fun k => (member k (.obj l)).isSome) = true
      · rw [if_pos h, isAll_eq l _ _ (List.all_eq_true.1 h), funext isNum_proper]
      · rw [if_neg h]
        congr 1
        symm
        rw [Bool.eq_false_iff]
        intro h2
        apply h
        rw [List.all_eq_true] at h2 ⊢
        exact fun k hk => any_isSome (h2 k hk)
    rw [key, bind_ok]
    simp only [List.all_cons, List.all_nil, List.any_cons, List.any_nil, mustBe_refuses, may_refuses]
    by_cases h1 : (member "id" (.obj l)).any Ty.int.proper = true
    case neg => simp [h1]
    by_cases h2 : (member "width" (.obj l)).any Ty.int.proper = true
    case neg => simp [h2]
    by_cases h3 : (member "height" (.obj l)).any Ty.int.proper = true
    case neg => simp [h3]
    by_cases h4 : (member "x" (.obj l)).any Ty.int.proper = true
    case neg => simp [h4]
    by_cases h5 : (member "y" (.obj l)).any Ty.int.proper = true
    case neg => simp [h5]
    simp only [mustBe_num (any_isSome h1), mustBe_num (any_isSome h2), mustBe_num (any_isSome h3), mustBe_num (any_isSome h4),
      mustBe_num (any_isSome h5), may_num, readAll, bind_assoc, bind_ok, h1, h2, h3, h4, h5]; rfl

theorem capture_form (p : Option Node) : Meets (captureConfigure p)
    (Form.read ⟨[must "device" .text, mustBe "width" .int, mustBe "height" .int, mustBe "fps" .int, may "format" .text,
        ⟨"forceformat", .bool, false, .refused⟩], .undefined, some⟩ p) := by
  refine by_form _ _ rfl (fun n h => ?_) (fun l => ?_) p
  · simp only [captureConfigure, hasAll_bad h, bind_dies]
  · have hff : Par.refuses ⟨"forceformat", .bool, false, .refused⟩ (.obj l) =
        !((member "forceformat" (.obj l)).all Ty.bool.proper) := by
      unfold Par.refuses
      cases member "forceformat" (.obj l) <;> simp
    have key : ((has (.obj l) "forceformat".toList).bind fun hf => if hf then is (.obj l) "forceformat" isBool else .ok true) =
        .ok ((member "forceformat" (.obj l)).all Ty.bool.proper) := by
      rw [has_obj, bind_ok]
      cases h : (member "forceformat" (.obj l)).isSome with
      | false => rw [if_neg (by simp), Option.isNone_iff_eq_none.1 (Option.isSome_eq_false_iff.1 h)]; rfl
      | true =>
        rw [if_pos rfl, is_eq l _ _ h, funext isBool_proper]
        obtain ⟨n, hn⟩ := Option.isSome_iff_exists.1 h
        rw [hn]; rfl
    simp only [captureConfigure, hasAll_all, bind_ok, List.all_cons, List.all_nil, List.any_cons, List.any_nil, mustBe_refuses,
      must_refuses, may_refuses, hff, key]
    have none_of {k : String} (h : (member k (.obj l)).isSome = false) : (member k (.obj l)).any Ty.int.proper = false := by
      rw [Option.isNone_iff_eq_none.1 (Option.isSome_eq_false_iff.1 h)]; rfl
    cases h1 : (member "device" (.obj l)).isSome <;> try rfl
    cases h2 : (member "width" (.obj l)).isSome
    · rw [none_of h2]; rfl
    cases h3 : (member "height" (.obj l)).isSome
    · rw [none_of h3]; simp
    cases h4 : (member "fps" (.obj l)).isSome
    · rw [none_of h4]; simp
    simp only [Bool.and_self, Bool.not_true, Bool.false_eq_true, if_false]
    rw [isAll_eq l]
    · simp only [bind_ok, List.all_cons, List.all_nil, funext isNum_proper]
      cases h5 : (member "width" (.obj l)).any Ty.int.proper <;> try rfl
      cases h6 : (member "height" (.obj l)).any Ty.int.proper <;> try rfl
      cases h7 : (member "fps" (.obj l)).any Ty.int.proper <;> try rfl
      simp only [Bool.and_self, if_true, bind_ok]
      cases h8 : (member "forceformat" (.obj l)).all Ty.bool.proper <;> try rfl
      have hf : opt (.obj l) "forceformat" toBool = readPar (.obj l) ⟨"forceformat", .bool, false, .refused⟩ :=
        opt_eq l "forceformat" .bool .refused (by decide) false
      simp only [must_text h1, mustBe_num h2, mustBe_num h3, mustBe_num h4, may_text, hf, readAll, bind_assoc, bind_ok]; rfl
    · intro k hk
      rcases List.mem_cons.1 hk with rfl | hk
      · exact h2
      · rcases List.mem_cons.1 hk with rfl | hk
        · exact h3
        · rcases List.mem_cons.1 hk with rfl | hk
          · exact h4
          · simp at hk

theorem takeInts_eq {l : List (Str × Node)} (h : (member "readers" (.obj l)).any Ty.ints.proper = true) :
    readPar (.obj l) (mustBe "readers" .ints) = (takeInts (.obj l)).bind fun z => .ok (some (.ints z)) := by
  obtain ⟨n, hn⟩ := Option.isSome_iff_exists.1 (any_isSome h)
  rw [hn] at h
  cases n with
  | val t s => cases t <;> simp [Ty.proper] at h
  | obj l => simp [Ty.proper] at h
  | arr a =>
    unfold takeInts
    rw [get_obj l "readers" _ hn, bind_ok]
    show _ = (toInts a).bind _
    rw [toInts_eq]
    unfold readPar Par.ends Par.read Par.given mustBe
    simp only [hn, Ty.value]
    cases hz : allSome (a.map intOf) <;> simp [Ty.value, hz]

theorem addRTSP_form (p : Option Node) : Meets (addRTSP p)
    (Form.read ⟨[mustBe "id" .int, must "name" .text, must "txFormat" .text, may "info" .text, may "desc" .text,
        mustBe "readers" .ints], .refused, someReaders⟩ p) := by
  refine by_form _ _ rfl (fun n h => ?_) (fun l => ?_) p
  · simp only [addRTSP, hasAll_bad h, bind_dies]
  · simp only [addRTSP, hasAll_all, bind_ok, List.all_cons, List.all_nil, List.any_cons, List.any_nil, mustBe_refuses,
      must_refuses, may_refuses]
    have none_of {k : String} {t : Node → Bool} (h : (member k (.obj l)).isSome = false) : (member k (.obj l)).any t = false := by
      rw [Option.isNone_iff_eq_none.1 (Option.isSome_eq_false_iff.1 h)]; rfl
    cases h1 : (member "id" (.obj l)).isSome
    · rw [none_of h1]; rfl
    cases h2 : (member "name" (.obj l)).isSome
    · simp
    cases h3 : (member "txFormat" (.obj l)).isSome
    · simp
    cases h4 : (member "readers" (.obj l)).isSome
    · rw [none_of h4]; simp
    simp only [Bool.and_self, Bool.not_true, Bool.false_eq_true, if_false, is_eq l _ _ h4, is_eq l _ _ h1, bind_ok,
      funext isNum_proper, funext isArr_proper]
    cases h5 : (member "readers" (.obj l)).any Ty.ints.proper
    · simp
    cases h6 : (member "id" (.obj l)).any Ty.int.proper
    · simp
    simp only [mustBe_num h1, must_text h2, must_text h3, may_text, readAll, bind_assoc, bind_ok, takeInts_eq h5]
    simp only [if_true, bind_ok, Bool.not_true, Bool.false_eq_true, if_false, Bool.or_false, someReaders, List.getLast?_cons_cons,
      List.getLast?_singleton, Option.some.injEq, Val.ints.injEq, List.isEmpty_iff]
    congr 1; funext a; congr 1; funext b; congr 1; funext c; congr 1; funext d; congr 1; funext e; congr 1; funext z
    split <;> rfl

theorem addRTP_form (p : Option Node) : Meets (addRTP p)
    (Form.read ⟨[must "id" .int, must "port" .int, must "ip" .text, must "txFormat" .text, mustBe "readers" .ints],
        .refused, someReaders⟩ p) := by
  refine by_form _ _ rfl (fun n h => ?_) (fun l => ?_) p
  · simp only [addRTP, hasAll_bad h, bind_dies]
  · simp only [addRTP, hasAll_all, bind_ok, List.all_cons, List.all_nil, List.any_cons, List.any_nil, mustBe_refuses, must_refuses]
    have none_of {k : String} {t : Node → Bool} (h : (member k (.obj l)).isSome = false) : (member k (.obj l)).any t = false := by
      rw [Option.isNone_iff_eq_none.1 (Option.isSome_eq_false_iff.1 h)]; rfl
    cases h1 : (member "id" (.obj l)).isSome <;> try rfl
    cases h2 : (member "port" (.obj l)).isSome <;> try rfl
    cases h3 : (member "ip" (.obj l)).isSome <;> try rfl
    cases h6 : (member "txFormat" (.obj l)).isSome <;> try rfl
    cases h4 : (member "readers" (.obj l)).isSome
    · rw [none_of h4]; rfl
    simp only [Bool.and_self, Bool.not_true, Bool.false_eq_true, if_false, is_eq l _ _ h4, bind_ok, funext isArr_proper]
    cases h5 : (member "readers" (.obj l)).any Ty.ints.proper
    · rfl
    simp only [must_num h1, must_num h2, must_text h3, must_text h6, readAll, bind_assoc, bind_ok, takeInts_eq h5]
    simp only [Bool.not_true, Bool.false_eq_true, if_false, Bool.or_false, someReaders, List.getLast?_cons_cons,
      List.getLast?_singleton, Option.some.injEq, Val.ints.injEq, List.isEmpty_iff]
    congr 1; funext a; congr 1; funext b; congr 1; funext c; congr 1; funext d; congr 1; funext z
    split <;> rfl

/-- **C78**: for every event of the table, whatever its parameters, the handler does what the table says. -/
theorem event_read (add : Option Node → Res) (k : Kind) (name : String) (f : Form) (h : (name, f) ∈ forms k) (p : Option Node) :
    ∃ hd, (name, hd) ∈ eventMap add k ∧ Meets (hd p) (f.read p) := by
  cases k <;> simp only [forms, List.mem_cons, List.not_mem_nil, or_false, Prod.mk.injEq] at h
  case audioEncoder => obtain ⟨rfl, rfl⟩ := h; exact ⟨_, by simp [eventMap], audioEncoder_form p⟩
  case audioDecoder => obtain ⟨rfl, rfl⟩ := h; exact ⟨_, by simp [eventMap], audioDecoder_form p⟩
  case audioMixer =>
    rcases h with ⟨rfl, rfl⟩ | ⟨rfl, rfl⟩ | ⟨rfl, rfl⟩ | ⟨rfl, rfl⟩
    · exact ⟨_, .head _, changeChannelGain_form p⟩
    · exact ⟨_, .tail _ (.head _), oneChannel_form p⟩
    · exact ⟨_, .tail _ (.tail _ (.head _)), oneChannel_form p⟩
    · exact ⟨_, .tail _ (.tail _ (.tail _ (.head _))), changeMasterGain_form p⟩
  case videoMixer =>
    rcases h with ⟨rfl, rfl⟩ | ⟨rfl, rfl⟩
    · exact ⟨_, .head _, configChannel_form p⟩
    · exact ⟨_, .tail _ (.head _), mixer_form p⟩
  case videoEncoder => obtain ⟨rfl, rfl⟩ := h; exact ⟨_, .tail _ (.tail _ (.head _)), videoEncoder_form p⟩
  case videoResampler => obtain ⟨rfl, rfl⟩ := h; exact ⟨_, .head _, resampler_form p⟩
  case videoSplitter =>
    rcases h with ⟨rfl, rfl⟩ | ⟨rfl, rfl⟩
    · exact ⟨_, .head _, configCrop_form p⟩
    · exact ⟨_, .tail _ (.head _), splitter_form p⟩
  case receiver => obtain ⟨rfl, rfl⟩ := h; exact ⟨_, .tail _ (.head _), removeSession_form p⟩
  case demuxer => obtain ⟨rfl, rfl⟩ := h; exact ⟨_, .head _, demuxer_form p⟩
  case capture => obtain ⟨rfl, rfl⟩ := h; exact ⟨_, .head _, capture_form p⟩
  case transmitter =>
    rcases h with ⟨rfl, rfl⟩ | ⟨rfl, rfl⟩ | ⟨rfl, rfl⟩
    · exact ⟨_, .head _, addRTSP_form p⟩
    · exact ⟨_, .tail _ (.head _), addRTP_form p⟩
    · exact ⟨_, .tail _ (.tail _ (.head _)), removeConnection_form p⟩
  case dasher =>
    rcases h with ⟨rfl, rfl⟩ | ⟨rfl, rfl⟩
    · exact ⟨_, .head _, dasher_form p⟩
    · exact ⟨_, .tail _ (.head _), setBitrate_form p⟩

end Lms.FilterEvents
