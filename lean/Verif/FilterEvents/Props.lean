import Verif.FilterEvents.Lemmas

/-!
# C78: events are read as the table says
-/

namespace Lms.FilterEvents

open Lms Lms.Json Lms.Control

theorem hasAll_all (l : List (Str × Node)) (ks : List String) :
    hasAll (.obj l) ks = .ok (ks.all fun k => (member k (.obj l)).isSome) := by
  induction ks with
  | nil => rfl
  | cons k ks ih =>
    simp only [hasAll, has_obj, bind_ok, List.all_cons]
    cases (member k (.obj l)).isSome with
    | true => simpa using ih
    | false => simp

theorem not_obj_has {n : Node} (h : ∀ l, n ≠ .obj l) (k : Str) : has n k = .dies := by
  cases n with
  | obj l => exact absurd rfl (h l)
  | _ => rfl

theorem not_obj_read {n : Node} (h : ∀ l, n ≠ .obj l) (f : Form) : f.read (some n) = .ends := by
  cases n with
  | obj l => exact absurd rfl (h l)
  | _ => rfl

/-- What a handler has to be compared with its form on. -/
theorem by_form (f : Form) (hd : Option Node → Res) (hmiss : hd none = f.missing.res)
    (hbad : ∀ n, (∀ l, n ≠ .obj l) → hd (some n) = .dies)
    (hobj : ∀ l, hd (some (.obj l)) =
      if f.pars.any (·.refuses (.obj l)) then .ok none else (readAll (.obj l) f.pars).bind fun a => .ok (f.whole a)) (p : Option Node) :
    Meets (hd p) (f.read p) := by
  apply meets_res
  cases p with
  | none => exact hmiss
  | some n =>
    cases n with
    | obj l => rw [hobj, form_res]
    | val t s => rw [hbad _ (by intro l h; cases h)]; rfl
    | arr l' => rw [hbad _ (by intro l h; cases h)]; rfl

theorem opt_bad {n : Node} (h : ∀ l, n ≠ .obj l) (k : String) (c : Node → R Val) : opt n k c = .dies := by
  unfold opt; rw [not_obj_has h]; rfl

theorem optIf_bad {n : Node} (h : ∀ l, n ≠ .obj l) (k : String) (t : Node → Bool) (c : Node → R Val) : optIf n k t c = .dies := by
  unfold optIf; rw [not_obj_has h]; rfl

theorem hasAll_bad {n : Node} (h : ∀ l, n ≠ .obj l) (k : String) (ks : List String) : hasAll n (k :: ks) = .dies := by
  unfold hasAll; rw [not_obj_has h]; rfl

theorem may_num (l : List (Str × Node)) (k : String) : opt (.obj l) k toNum = readPar (.obj l) (may k .int) :=
  opt_eq l k .int .ends (by decide) false
theorem may_text (l : List (Str × Node)) (k : String) : opt (.obj l) k toText = readPar (.obj l) (may k .text) :=
  opt_eq l k .text .ends (by decide) false
theorem mayBe_num (l : List (Str × Node)) (k : String) : optIf (.obj l) k isNum toNum = readPar (.obj l) (mayBe k .int) :=
  optIf_eq l k .int _ isNum_proper false
theorem mayBe_text (l : List (Str × Node)) (k : String) : optIf (.obj l) k isStr toText = readPar (.obj l) (mayBe k .text) :=
  optIf_eq l k .text _ isStr_proper false
theorem mayBe_bool (l : List (Str × Node)) (k : String) : optIf (.obj l) k isBool toBool = readPar (.obj l) (mayBe k .bool) :=
  optIf_eq l k .bool _ isBool_proper false
theorem must_num {l : List (Str × Node)} {k : String} (h : (member k (.obj l)).isSome = true) :
    take (.obj l) k toNum = readPar (.obj l) (must k .int) := take_eq l k .int h .ends (by decide) true
theorem must_flt {l : List (Str × Node)} {k : String} (h : (member k (.obj l)).isSome = true) :
    take (.obj l) k toFlt = readPar (.obj l) (must k .flt) := take_eq l k .flt h .ends (by decide) true
theorem must_bool {l : List (Str × Node)} {k : String} (h : (member k (.obj l)).isSome = true) :
    take (.obj l) k toBool = readPar (.obj l) (must k .bool) := take_eq l k .bool h .ends (by decide) true
theorem must_text {l : List (Str × Node)} {k : String} (h : (member k (.obj l)).isSome = true) :
    take (.obj l) k toText = readPar (.obj l) (must k .text) := take_eq l k .text h .ends (by decide) true
theorem mustBe_num {l : List (Str × Node)} {k : String} (h : (member k (.obj l)).isSome = true) :
    take (.obj l) k toNum = readPar (.obj l) (mustBe k .int) := take_eq l k .int h .refused (by decide) true

theorem audioEncoder_form (p : Option Node) : Meets (audioEncoderConfigure p)
    (Form.read ⟨[may "codec" .text, may "sampleRate" .int, may "channels" .int, may "bitrate" .int], .refused, some⟩ p) := by
  refine by_form _ _ rfl (fun n h => ?_) (fun l => ?_) p
  · simp only [audioEncoderConfigure, opt_bad h, bind_dies]
  · simp only [audioEncoderConfigure, may_num, may_text, may_refuses, List.any_cons, List.any_nil, Bool.or_self, Bool.false_eq_true,
      if_false, readAll, bind_assoc, bind_ok]

theorem audioDecoder_form (p : Option Node) : Meets (audioDecoderConfigure p)
    (Form.read ⟨[may "sampleRate" .int, may "channels" .int, may "sampleFormat" .text], .refused, some⟩ p) := by
  refine by_form _ _ rfl (fun n h => ?_) (fun l => ?_) p
  · simp only [audioDecoderConfigure, opt_bad h, bind_dies]
  · simp only [audioDecoderConfigure, may_num, may_text, may_refuses, List.any_cons, List.any_nil, Bool.or_self, Bool.false_eq_true,
      if_false, readAll, bind_assoc, bind_ok]

theorem changeChannelGain_form (p : Option Node) : Meets (changeChannelGain p)
    (Form.read ⟨[must "id" .int, must "gain" .flt], .refused, some⟩ p) := by
  refine by_form _ _ rfl (fun n h => ?_) (fun l => ?_) p
  · simp only [changeChannelGain, hasAll_bad h, bind_dies]
  · simp only [changeChannelGain, hasAll_all, bind_ok, List.all_cons, List.all_nil, must_refuses, List.any_cons, List.any_nil]
    cases h1 : (member "id" (.obj l)).isSome <;> cases h2 : (member "gain" (.obj l)).isSome <;> try rfl
    simp only [must_num h1, must_flt h2, readAll, bind_assoc, bind_ok]; rfl

theorem oneChannel_form (p : Option Node) : Meets (oneChannel p) (Form.read ⟨[must "id" .int], .refused, some⟩ p) := by
  refine by_form _ _ rfl (fun n h => ?_) (fun l => ?_) p
  · simp only [oneChannel, not_obj_has h, bind_dies]
  · simp only [oneChannel, has_obj, bind_ok, must_refuses, List.any_cons, List.any_nil]
    cases h1 : (member "id" (.obj l)).isSome <;> try rfl
    simp only [must_num h1, readAll, bind_assoc, bind_ok]; rfl

theorem changeMasterGain_form (p : Option Node) : Meets (changeMasterGain p) (Form.read ⟨[must "gain" .flt], .refused, some⟩ p) := by
  refine by_form _ _ rfl (fun n h => ?_) (fun l => ?_) p
  · simp only [changeMasterGain, not_obj_has h, bind_dies]
  · simp only [changeMasterGain, has_obj, bind_ok, must_refuses, List.any_cons, List.any_nil]
    cases h1 : (member "gain" (.obj l)).isSome <;> try rfl
    simp only [must_flt h1, readAll, bind_assoc, bind_ok]; rfl

theorem removeSession_form (p : Option Node) : Meets (removeSession p) (Form.read ⟨[must "id" .text], .undefined, some⟩ p) := by
  refine by_form _ _ rfl (fun n h => ?_) (fun l => ?_) p
  · simp only [removeSession, not_obj_has h, bind_dies]
  · simp only [removeSession, has_obj, bind_ok, must_refuses, List.any_cons, List.any_nil]
    cases h1 : (member "id" (.obj l)).isSome <;> try rfl
    simp only [must_text h1, readAll, bind_assoc, bind_ok]; rfl

theorem demuxer_form (p : Option Node) : Meets (demuxerConfigure p) (Form.read ⟨[must "uri" .text], .refused, some⟩ p) := by
  refine by_form _ _ rfl (fun n h => ?_) (fun l => ?_) p
  · simp only [demuxerConfigure, not_obj_has h, bind_dies]
  · simp only [demuxerConfigure, has_obj, bind_ok, must_refuses, List.any_cons, List.any_nil]
    cases h1 : (member "uri" (.obj l)).isSome <;> try rfl
    simp only [must_text h1, readAll, bind_assoc, bind_ok]; rfl

theorem setBitrate_form (p : Option Node) : Meets (setBitrate p)
    (Form.read ⟨[must "id" .int, must "bitrate" .int], .refused, some⟩ p) := by
  refine by_form _ _ rfl (fun n h => ?_) (fun l => ?_) p
  · simp only [setBitrate, hasAll_bad h, bind_dies]
  · simp only [setBitrate, hasAll_all, bind_ok, List.all_cons, List.all_nil, must_refuses, List.any_cons, List.any_nil]
    cases h1 : (member "id" (.obj l)).isSome <;> cases h2 : (member "bitrate" (.obj l)).isSome <;> try rfl
    simp only [must_num h1, must_num h2, readAll, bind_assoc, bind_ok]; rfl

theorem dasher_form (p : Option Node) : Meets (dasherConfigure p)
    (Form.read ⟨[mayBe "folder" .text, mayBe "baseName" .text, mayBe "segDurInSec" .int, mayBe "maxSeg" .int,
        mayBe "minBuffTime" .int], .refused, some⟩ p) := by
  refine by_form _ _ rfl (fun n h => ?_) (fun l => ?_) p
  · simp only [dasherConfigure, optIf_bad h, bind_dies]
  · simp only [dasherConfigure, mayBe_num, mayBe_text, mayBe_refuses, List.any_cons, List.any_nil, Bool.or_self, Bool.false_eq_true,
      if_false, readAll, bind_assoc, bind_ok]

theorem videoEncoder_form (p : Option Node) : Meets (videoEncoderConfigure p)
    (Form.read ⟨[mayBe "bitrate" .int, mayBe "fps" .int, mayBe "gop" .int, mayBe "lookahead" .int, mayBe "bframes" .int,
        mayBe "threads" .int, mayBe "annexb" .bool, may "preset" .text, mayBe "gopTime" .int], .refused, some⟩ p) := by
  refine by_form _ _ rfl (fun n h => ?_) (fun l => ?_) p
  · simp only [videoEncoderConfigure, optIf_bad h, bind_dies]
  · simp only [videoEncoderConfigure, mayBe_num, may_text, mayBe_bool, mayBe_refuses, may_refuses, List.any_cons, List.any_nil,
      Bool.or_self, Bool.false_eq_true, if_false, readAll, bind_assoc, bind_ok]

theorem splitter_form (p : Option Node) : Meets (splitterConfigure p) (Form.read ⟨[mayBe "fTime" .int], .refused, some⟩ p) := by
  refine by_form _ _ rfl (fun n h => ?_) (fun l => ?_) p
  · simp only [splitterConfigure, optIf_bad h, bind_dies]
  · simp only [splitterConfigure, mayBe_num, mayBe_refuses, List.any_cons, List.any_nil, Bool.or_self, Bool.false_eq_true,
      if_false, readAll, bind_assoc, bind_ok]

theorem removeConnection_form (p : Option Node) : Meets (removeConnection p) (Form.read ⟨[mustBe "id" .int], .refused, some⟩ p) := by
  refine by_form _ _ rfl (fun n h => ?_) (fun l => ?_) p
  · simp only [removeConnection, not_obj_has h, bind_dies]
  · simp only [removeConnection, has_obj, bind_ok, mustBe_refuses, List.any_cons, List.any_nil, funext isNum_proper]
    cases h1 : (member "id" (.obj l)).isSome with
    | false => simp [Option.isSome_eq_false_iff.1 h1 |> Option.isNone_iff_eq_none.1]
    | true =>
      simp only [is_eq l _ _ h1, bind_ok]
      cases h2 : (member "id" (.obj l)).any Ty.int.proper <;> try rfl
      simp only [mustBe_num h1, readAll, bind_assoc, bind_ok]; rfl

theorem configChannel_form (p : Option Node) : Meets (configChannel p)
    (Form.read ⟨[must "id" .int, must "width" .flt, must "height" .flt, must "x" .flt, must "y" .flt, must "layer" .int,
        must "enabled" .bool, must "opacity" .flt], .refused, some⟩ p) := by
  refine by_form _ _ rfl (fun n h => ?_) (fun l => ?_) p
  · simp only [configChannel, hasAll_bad h, bind_dies]
  · simp only [configChannel, hasAll_all, bind_ok, List.all_cons, List.all_nil, must_refuses, List.any_cons, List.any_nil]
    cases h1 : (member "id" (.obj l)).isSome <;> try rfl
    cases h2 : (member "width" (.obj l)).isSome <;> try rfl
    cases h3 : (member "height" (.obj l)).isSome <;> try rfl
    cases h4 : (member "x" (.obj l)).isSome <;> try rfl
    cases h5 : (member "y" (.obj l)).isSome <;> try rfl
    cases h6 : (member "layer" (.obj l)).isSome <;> try rfl
    cases h7 : (member "enabled" (.obj l)).isSome <;> try rfl
    cases h8 : (member "opacity" (.obj l)).isSome <;> try rfl
    simp only [must_num h1, must_flt h2, must_flt h3, must_flt h4, must_flt h5, must_num h6, must_bool h7, must_flt h8, readAll,
      bind_assoc, bind_ok]; rfl

end Lms.FilterEvents
