import Verif.Json.Props
import Verif.FilterEvents.Deliver

/-!
# C79: the calls of the filters' C++ interface arrive as they were made

The functions `configure`, `configChannel`, `configCrop` and those of the audio mixer make an event out of their arguments and push
it; they return true whatever becomes of the event.  A `float` is given by the text it is printed as (`std::stringstream <<`,
src/Jzon.cpp:373-379).
-/

namespace Lms.FilterEvents

open Lms Lms.Json Lms.Control

/-- `Jzon::Object` with these members added one after the other (src/Jzon.cpp:573-580). -/
def object (l : List (String × Node)) : Node := .obj (l.map fun e => (e.1.toList, e.2))

/-- `root.Add("action", …); root.Add("params", params);`. -/
def apiEvent (action : String) (params : List (String × Node)) : Node :=
  object [("action", ofString action.toList), ("params", object params)]

/-- src/Jzon.cpp:380-386 `Value(const bool)`. -/
def boolNode (b : Bool) : Node := .val .bool (if b then "true".toList else "false".toList)

/-- src/Jzon.cpp:373-379 `Value(const float)`. -/
def fltNode (t : Str) : Node := .val .num t

/-- src/modules/audioEncoder/AudioEncoderLibav.cpp:461-474 `configure`; `codec` is its name (src/Utils.cpp). -/
def apiAudioEncoder (codec : Str) (ch rate bitrate : Int) : Node :=
  apiEvent "configure" [("codec", ofString codec), ("channels", intNode ch), ("sampleRate", intNode rate), ("bitrate", intNode bitrate)]

/-- src/modules/audioDecoder/AudioDecoderLibav.cpp:356-368 `configure`; `fmt` is the name of the format. -/
def apiAudioDecoder (fmt : Str) (ch rate : Int) : Node :=
  apiEvent "configure" [("sampleFormat", ofString fmt), ("channels", intNode ch), ("sampleRate", intNode rate)]

/-- src/modules/videoMixer/VideoMixer.cpp:353-370 `configChannel`. -/
def apiConfigChannel (id : Int) (w h x y : Str) (layer : Int) (enabled : Bool) (opacity : Str) : Node :=
  apiEvent "configChannel" [("id", intNode id), ("width", fltNode w), ("height", fltNode h), ("x", fltNode x), ("y", fltNode y),
    ("layer", intNode layer), ("enabled", boolNode enabled), ("opacity", fltNode opacity)]

/-- src/modules/videoMixer/VideoMixer.cpp:372-384 `configure`. -/
def apiMixer (w h fps : Int) : Node := apiEvent "configure" [("width", intNode w), ("height", intNode h), ("fps", intNode fps)]

/-- src/modules/videoEncoder/VideoEncoderX264or5.cpp:274-295 `configure`. -/
def apiVideoEncoder (bitrate fps gop lookahead bFrames threads : Int) (annexB : Bool) (preset : Str) (gopTime : Int) : Node :=
  apiEvent "configure" [("bitrate", intNode bitrate), ("fps", intNode fps), ("gop", intNode gop), ("gopTime", intNode gopTime),
    ("lookahead", intNode lookahead), ("bframes", intNode bFrames), ("threads", intNode threads), ("annexb", boolNode annexB),
    ("preset", ofString preset)]

/-- src/modules/videoSplitter/VideoSplitter.cpp:73-88 `configCrop`. -/
def apiConfigCrop (id w h x y degree : Int) : Node :=
  apiEvent "configCrop" [("id", intNode id), ("width", intNode w), ("height", intNode h), ("x", intNode x), ("y", intNode y),
    ("degree", intNode degree)]

/-- src/modules/videoSplitter/VideoSplitter.cpp:90-99 `configure`. -/
def apiSplitter (fTime : Int) : Node := apiEvent "configure" [("fTime", intNode fTime)]

/-- src/modules/videoResampler/VideoResampler.cpp:282-295 `configure`; the pixel format as its number (src/Types.hh:67). -/
def apiResampler (w h fps pix : Int) : Node :=
  apiEvent "configure" [("width", intNode w), ("height", intNode h), ("fps", intNode fps), ("pixelFormat", intNode pix)]

/-- src/modules/audioMixer/AudioMixer.cpp:398-409 `changeChannelGain`. -/
def apiGain (id : Int) (g : Str) : Node := apiEvent "changeChannelGain" [("id", intNode id), ("gain", fltNode g)]

/-- src/modules/audioMixer/AudioMixer.cpp:411-421 `muteChannel`. -/
def apiMute (id : Int) : Node := apiEvent "muteChannel" [("id", intNode id)]

/-- src/modules/audioMixer/AudioMixer.cpp:423-433 `soloChannel`. -/
def apiSolo (id : Int) : Node := apiEvent "soloChannel" [("id", intNode id)]

/-- src/modules/audioMixer/AudioMixer.cpp:435-445 `changeMasterGain`. -/
def apiMaster (g : Str) : Node := apiEvent "changeMasterGain" [("gain", fltNode g)]

/-- src/modules/audioMixer/AudioMixer.cpp:447-455 `muteMaster`: no parameters. -/
def apiMuteMaster : Node := object [("action", ofString "muteMaster".toList)]

/-- The calls of the filters' interface. -/
inductive Call where
  | audioEncoder (codec : Str) (ch rate bitrate : Int)
  | audioDecoder (fmt : Str) (ch rate : Int)
  | configChannel (id : Int) (w h x y : Str) (layer : Int) (enabled : Bool) (opacity : Str)
  | mixer (w h fps : Int)
  | videoEncoder (bitrate fps gop lookahead bFrames threads : Int) (annexB : Bool) (preset : Str) (gopTime : Int)
  | configCrop (id w h x y degree : Int)
  | splitter (fTime : Int)
  | resampler (w h fps pix : Int)
  | gain (id : Int) (g : Str)
  | mute (id : Int)
  | solo (id : Int)
  | master (g : Str)
  | muteMaster

/-- The event made of a call: see the functions above. -/
def Call.event : Call → Node
  | .audioEncoder c ch r b => apiAudioEncoder c ch r b
  | .audioDecoder f ch r => apiAudioDecoder f ch r
  | .configChannel i w h x y l e o => apiConfigChannel i w h x y l e o
  | .mixer w h f => apiMixer w h f
  | .videoEncoder b f g l bf t a p gt => apiVideoEncoder b f g l bf t a p gt
  | .configCrop i w h x y d => apiConfigCrop i w h x y d
  | .splitter f => apiSplitter f
  | .resampler w h f p => apiResampler w h f p
  | .gain i g => apiGain i g
  | .mute i => apiMute i
  | .solo i => apiSolo i
  | .master g => apiMaster g
  | .muteMaster => apiMuteMaster

/-- src/modules/dasher/Dasher.cpp:297-308 `sendSetReferenceEvent`: the time at which the encoders of all representations are to start
a group of pictures. -/
def referenceEvent (t : Nat) : Node := apiEvent "gopReferenceTime" [("referenceTime", ofString (dec t))]

/-! ## What the caller relies on -/

/-- The filter that is called, the action, and the arguments in the order in which the handler of `Verif.FilterEvents.Model` hands
them over. -/
def Call.meant : Call → Kind × String × Args
  | .audioEncoder c ch r b => (.audioEncoder, "configure", [some (.text c), some (.int r), some (.int ch), some (.int b)])
  | .audioDecoder f ch r => (.audioDecoder, "configure", [some (.int r), some (.int ch), some (.text f)])
  | .configChannel i w h x y l e o => (.videoMixer, "configChannel",
      [some (.int i), some (.flt w), some (.flt h), some (.flt x), some (.flt y), some (.int l), some (.bool e), some (.flt o)])
  | .mixer w h f => (.videoMixer, "configure", [some (.int w), some (.int h), some (.int f)])
  | .videoEncoder b f g l bf t a p gt => (.videoEncoder, "configure", [some (.int b), some (.int f), some (.int g), some (.int l),
      some (.int bf), some (.int t), some (.bool a), some (.text p), some (.int gt)])
  | .configCrop i w h x y d => (.videoSplitter, "configCrop",
      [some (.int i), some (.int w), some (.int h), some (.int x), some (.int y), some (.int d)])
  | .splitter f => (.videoSplitter, "configure", [some (.int f)])
  | .resampler w h f p => (.videoResampler, "configure", [some (.int w), some (.int h), some (.int f), some (.int p)])
  | .gain i g => (.audioMixer, "changeChannelGain", [some (.int i), some (.flt g)])
  | .mute i => (.audioMixer, "muteChannel", [some (.int i)])
  | .solo i => (.audioMixer, "soloChannel", [some (.int i)])
  | .master g => (.audioMixer, "changeMasterGain", [some (.flt g)])
  | .muteMaster => (.audioMixer, "muteMaster", [])

/-- The arguments are of their C++ types; a text has no backslash. -/
def Call.Typed (c : Call) : Prop :=
  (∀ z, some (Val.int z) ∈ c.meant.2.2 → Fits z) ∧ (∀ t, some (Val.text t) ∈ c.meant.2.2 → '\\' ∉ t) ∧
  match c with
  | .resampler _ _ _ p => -1 ≤ p ∧ p ≤ 5
  | _ => True

/-! ## Lookup by name -/

theorem member_object (l : List (String × Node)) (k : String) : member k (object l) = l.lookup k := by
  unfold member object
  simp only []
  induction l with
  | nil => rfl
  | cons e l ih =>
    obtain ⟨n, v⟩ := e
    simp only [List.map_cons, List.lookup_cons]
    by_cases h : k = n
    · subst h; simp
    · have h1 : (k == n) = false := by simpa using h
      have h2 : (k.toList == n.toList) = false := by
        rw [beq_eq_false_iff_ne]
        exact fun hx => h (String.toList_inj.1 hx)
      rw [h1, h2]; exact ih

theorem api_action (a : String) (ha : '\\' ∉ a.toList) (ps : List (String × Node)) : actionOf (apiEvent a ps) = some a.toList := by
  unfold actionOf apiEvent
  rw [member_object, ofString_plain _ ha]
  rfl

theorem api_params (a : String) (ps : List (String × Node)) : member "params" (apiEvent a ps) = some (object ps) := by
  unfold apiEvent
  rw [member_object]
  simp [List.lookup]

theorem api_execute (add : Option Node → Res) (k : Kind) (a : String) (f : Form) (hf : (a, f) ∈ forms k) (ha : '\\' ∉ a.toList)
    (ps : List (String × Node)) : execute add k (apiEvent a ps) = (f.read (some (object ps))).taken a.toList := by
  refine (event_by_table add k _ a f hf (api_action a ha ps)).trans ?_
  exact congrArg (fun x => (f.read x).taken a.toList) (api_params a ps)

theorem int_value (z : Int) (h : Fits z) : Ty.value .int (intNode z) = some (.int z) := by
  simp [Ty.value, intNode, intOf, readInt_showInt z h]

theorem bool_value (b : Bool) : Ty.value .bool (boolNode b) = some (.bool b) := by
  cases b <;> decide

theorem text_value (t : Str) (h : '\\' ∉ t) : Ty.value .text (ofString t) = some (.text t) := by
  rw [ofString_plain t h]; rfl

theorem flt_value (t : Str) : Ty.value .flt (fltNode t) = some (.flt t) := rfl
theorem int_proper (z : Int) : Ty.proper .int (intNode z) = true := rfl
theorem bool_proper (b : Bool) : Ty.proper .bool (boolNode b) = true := by cases b <;> rfl
theorem text_proper (t : Str) : Ty.proper .text (ofString t) = true := rfl
theorem flt_proper (t : Str) : Ty.proper .flt (fltNode t) = true := rfl

/-- Parameters that are all there, proper and with these values. -/
theorem read_given (f : Form) (ps : List (String × Node)) (args : Args)
    (h1 : ∀ q ∈ f.pars, ∃ n, ps.lookup q.name = some n ∧ q.ty.proper n = true ∧ (q.ty.value n).isSome = true)
    (h2 : f.pars.map (fun q => (ps.lookup q.name).bind q.ty.value) = args) (h3 : f.whole args = some args) :
    f.read (some (object ps)) = .takes args := by
  have hg : ∀ q ∈ f.pars, q.given (object ps) = ps.lookup q.name := by
    intro q hq
    obtain ⟨n, hn, hp, _⟩ := h1 q hq
    unfold Par.given
    rw [member_object, hn]; simp [hp]
  have a1 : f.pars.any (·.refuses (object ps)) = false := by
    rw [List.any_eq_false]
    intro q hq
    obtain ⟨n, hn, hp, _⟩ := h1 q hq
    unfold Par.refuses
    rw [member_object, hn]; simp [hp]
  have a2 : f.pars.any (·.ends (object ps)) = false := by
    rw [List.any_eq_false]
    intro q hq
    obtain ⟨n, hn, _, hv⟩ := h1 q hq
    unfold Par.ends
    rw [hg q hq, hn]
    obtain ⟨v, hv⟩ := Option.isSome_iff_exists.1 hv
    simp [hv]
  have a3 : f.pars.map (·.read (object ps)) = args := by
    rw [← h2]
    exact List.map_congr_left fun q hq => by unfold Par.read; rw [hg q hq]
  unfold object at a1 a2 a3 ⊢
  simp only [Form.read, a1, a2, a3, h3]
  rfl

theorem arrives_of (add : Option Node → Res) (k : Kind) (a : String) (i : Nat) (f : Form) (hf : (forms k)[i]? = some (a, f))
    (ha : '\\' ∉ a.toList) (ps : List (String × Node)) (args : Args)
    (h1 : ∀ q ∈ f.pars, ∃ n, ps.lookup q.name = some n ∧ q.ty.proper n = true ∧ (q.ty.value n).isSome = true)
    (h2 : f.pars.map (fun q => (ps.lookup q.name).bind q.ty.value) = args) (h3 : f.whole args = some args) :
    execute add k (apiEvent a ps) = .ok (.called a.toList args) := by
  rw [api_execute add k a f (List.mem_of_getElem? hf) ha ps, read_given f ps args h1 h2 h3]; rfl

local macro "given" : tactic =>
  `(tactic| simp [must, may, mustBe, mayBe, List.lookup, int_value, text_value, bool_value, flt_value, int_proper, text_proper,
    bool_proper, flt_proper, *])
local macro "values" : tactic =>
  `(tactic| (simp [must, may, mustBe, mayBe, List.lookup, int_value, text_value, bool_value, flt_value, *]; rfl))

/-- **C79**: a call of the interface is carried out by the filter it is called on, with the arguments it was called with. -/
theorem call_arrives (add : Option Node → Res) (c : Call) (h : c.Typed) :
    execute add c.meant.1 c.event = .ok (.called c.meant.2.1.toList c.meant.2.2) := by
  obtain ⟨hi, ht, hp⟩ := h
  cases c
  case muteMaster => exact no_params_needed add .audioMixer _ "muteMaster" (by simp) (by decide +kernel)
  all_goals
    simp only [Call.meant, List.mem_cons, List.not_mem_nil, or_false, Option.some.injEq, Val.int.injEq, Val.text.injEq, reduceCtorEq,
      false_or, or_false, forall_eq_or_imp, forall_eq, false_implies, implies_true] at hi ht
  case audioEncoder => exact arrives_of add _ _ 0 _ rfl (by decide) _ _ (by given) (by values) rfl
  case audioDecoder => exact arrives_of add _ _ 0 _ rfl (by decide) _ _ (by given) (by values) rfl
  case configChannel => exact arrives_of add _ _ 0 _ rfl (by decide) _ _ (by given) (by values) rfl
  case mixer => exact arrives_of add _ _ 1 _ rfl (by decide) _ _ (by given) (by values) rfl
  case videoEncoder => exact arrives_of add _ _ 0 _ rfl (by decide) _ _ (by given) (by values) rfl
  case configCrop => exact arrives_of add _ _ 0 _ rfl (by decide) _ _ (by given) (by values) rfl
  case splitter => exact arrives_of add _ _ 1 _ rfl (by decide) _ _ (by given) (by values) rfl
  case gain => exact arrives_of add _ _ 0 _ rfl (by decide) _ _ (by given) (by values) rfl
  case mute => exact arrives_of add _ _ 1 _ rfl (by decide) _ _ (by given) (by values) rfl
  case solo => exact arrives_of add _ _ 2 _ rfl (by decide) _ _ (by given) (by values) rfl
  case master => exact arrives_of add _ _ 3 _ rfl (by decide) _ _ (by given) (by values) rfl
  case resampler p =>
    refine arrives_of add _ _ 0 _ rfl (by decide) _ _ (by given) (by values) ?_
    simp only [Call.meant, pixelInRange, List.getLast?_cons_cons, List.getLast?_singleton]
    exact if_pos hp

/-- The hypotheses of `call_arrives` hold of a real call. -/
example : (Call.videoEncoder 2000 25 50 0 0 4 true "superfast".toList 0).Typed := by
  refine ⟨?_, ?_, trivial⟩ <;> simp [Call.meant, Fits]

example : (Call.resampler 1280 720 (-1) 5).Typed := by
  refine ⟨?_, ?_, by decide⟩ <;> simp [Call.meant, Fits]

/-- A text with a backslash arrives changed: the preset `a\\nb` has a line break on arrival. -/
theorem backslash_changed (add : Option Node → Res) (b f g l bf t gt : Int) (a : Bool) (hb : Fits b) (hf : Fits f) (hg : Fits g) (hl : Fits l)
    (hbf : Fits bf) (ht : Fits t) (hgt : Fits gt) :
    execute add .videoEncoder (Call.videoEncoder b f g l bf t a "a\\nb".toList gt).event = .ok (.called "configure".toList
      [some (.int b), some (.int f), some (.int g), some (.int l), some (.int bf), some (.int t), some (.bool a), some (.text "a\nb".toList),
        some (.int gt)]) := by
  have hx : Ty.value .text (ofString "a\\nb".toList) = some (.text "a\nb".toList) := by rw [construction_unescapes]; rfl
  generalize "a\\nb".toList = s at hx
  generalize "a\nb".toList = u at hx
  exact arrives_of add _ _ 0 _ rfl (by decide) _ _ (by given)
    (by simp [may, mayBe, List.lookup, int_value, bool_value, *]) rfl

/-! ## The reference time -/

theorem stoull_digits (n : Nat) (h : n < 18446744073709551616) : stoull (dec n) = .ok n := by
  have hd := dec_digits n
  have hne : dec n ≠ [] := by rw [dec]; split <;> simp
  obtain ⟨c, r, hc⟩ := List.exists_cons_of_ne_nil hne
  have hcd := hd c (by rw [hc]; simp)
  have hbl : isBlank c = false := by
    have h1 := hcd.1
    unfold isBlank
    simp only [decide_eq_false_iff_not]
    rintro (rfl | rfl | rfl | rfl | rfl | rfl) <;> exact absurd h1 (by decide)
  have hm : c ≠ '-' := by rintro rfl; exact absurd hcd.1 (by decide)
  have hp : c ≠ '+' := by rintro rfl; exact absurd hcd.1 (by decide)
  have hdrop : (dec n).dropWhile isBlank = dec n := by rw [hc]; simp [hbl]
  have hhead : (dec n).head? = some c := by rw [hc]; rfl
  have e := leading_append (dec n) [] hd
  simp only [List.append_nil, leadingDigits] at e
  unfold stoull
  simp only [hdrop, hhead, Option.some.injEq, hm, hp, decide_false, Bool.or_self, Bool.false_eq_true, if_false, e, dec_value]
  rw [if_neg (by simpa using hne), if_neg (by omega)]

theorem stoull_minus (n : Nat) (h : n < 18446744073709551616) : stoull ('-' :: dec n) = .ok ((18446744073709551616 - n) % 18446744073709551616) := by
  have hne : dec n ≠ [] := by rw [dec]; split <;> simp
  have hdrop : ('-' :: dec n).dropWhile isBlank = '-' :: dec n := by rw [List.dropWhile_cons]; rfl
  have e := leading_append (dec n) [] (dec_digits n)
  simp only [List.append_nil, leadingDigits] at e
  unfold stoull
  simp only [hdrop, List.head?_cons, decide_true, Bool.true_or, if_true, List.tail_cons, e, dec_value]
  rw [if_neg (by simpa using hne), if_neg (by omega)]

/-- The event with this reference time. -/
theorem reference_text (add : Option Node → Res) (l q : List (Str × Node)) (t : Str) (ha : actionOf (.obj l) = some "gopReferenceTime".toList)
    (hp : member "params" (.obj l) = some (.obj q)) (ht : member "referenceTime" (.obj q) = some (.val .str t)) :
    execute add .videoEncoder (.obj l) = (stoull t).bind fun n =>
      .ok (.called "gopReferenceTime".toList [some (.int (if n < 9223372036854775808 then n else n - 18446744073709551616))]) := by
  rw [execute_known add .videoEncoder l ("gopReferenceTime", gopReferenceTime) (by simp [eventMap]) (by decide) ha, hp]
  have : optIf (.obj q) "referenceTime" isStr toText = .ok (some (.text t)) := by
    unfold optIf
    rw [has_obj, ht, bind_ok, Option.isSome_some, if_pos rfl, get_obj q _ _ ht, bind_ok]
    simp only [isStr, if_true]
    unfold take
    rw [get_obj q _ _ ht, bind_ok]; rfl
  simp only [gopReferenceTime, this, bind_ok]
  cases stoull t <;> rfl

/-- **C79**: the time reported as `refTime`, given to an encoder as its reference time, is taken as that time. -/
theorem reference_round_trip (add : Option Node → Res) (l q : List (Str × Node)) (z : Int)
    (hz : -9223372036854775808 ≤ z ∧ z < 9223372036854775808) (ha : actionOf (.obj l) = some "gopReferenceTime".toList)
    (hp : member "params" (.obj l) = some (.obj q)) (ht : member "referenceTime" (.obj q) = some (.val .str (showInt z))) :
    execute add .videoEncoder (.obj l) = .ok (.called "gopReferenceTime".toList [some (.int z)]) := by
  rw [reference_text add l q _ ha hp ht]
  unfold showInt
  split
  · rw [stoull_minus _ (by omega), bind_ok, Nat.mod_eq_of_lt (by omega)]
    rw [if_neg (by omega)]
    congr 5
    omega
  · rw [stoull_digits _ (by omega), bind_ok]
    rw [if_pos (by omega)]
    congr 5
    omega

theorem dec_no_backslash (n : Nat) : '\\' ∉ dec n := fun h => absurd (dec_digits n _ h).2 (by decide)

/-- **C79**: the time a DASH filter asks for is the time its encoders take, below 2^63 microseconds. -/
theorem dash_reference (add : Option Node → Res) (t : Nat) (h : t < 9223372036854775808) :
    execute add .videoEncoder (referenceEvent t) = .ok (.called "gopReferenceTime".toList [some (.int t)]) := by
  refine reference_round_trip add _ [("referenceTime".toList, .val .str (dec t))] t (by omega) (api_action _ (by decide) _) ?_ ?_
  · refine (api_params _ _).trans ?_
    rw [ofString_plain _ (dec_no_backslash t)]; rfl
  · refine (member_object [("referenceTime", .val .str (dec t))] "referenceTime").trans ?_
    have : showInt (t : Int) = dec t := by unfold showInt; rw [if_neg (by omega)]; rfl
    rw [this]; rfl

/-- A reference time that is not a text, or none, is refused; a text that does not begin with a number ends the process; an event
without parameters follows a null pointer. -/
theorem reference_wrong (add : Option Node → Res) (l : List (Str × Node)) (ha : actionOf (.obj l) = some "gopReferenceTime".toList) :
    (member "params" (.obj l) = none → execute add .videoEncoder (.obj l) = .ub) ∧
    (∀ q, member "params" (.obj l) = some (.obj q) → (∀ t, member "referenceTime" (.obj q) ≠ some (.val .str t)) →
      execute add .videoEncoder (.obj l) = .ok (.refused "gopReferenceTime".toList)) ∧
    (∀ q c t, member "params" (.obj l) = some (.obj q) → member "referenceTime" (.obj q) = some (.val .str (c :: t)) →
      isBlank c = false → c ≠ '-' → c ≠ '+' → ¬ ('0' ≤ c ∧ c ≤ '9') → execute add .videoEncoder (.obj l) = .dies) := by
  refine ⟨fun hp => ?_, fun q hp ht => ?_, fun q c t hp ht h1 h2 h3 h4 => ?_⟩
  · rw [execute_known add .videoEncoder l ("gopReferenceTime", gopReferenceTime) (by simp [eventMap]) (by decide) ha, hp]; rfl
  · rw [execute_known add .videoEncoder l ("gopReferenceTime", gopReferenceTime) (by simp [eventMap]) (by decide) ha, hp]
    have : optIf (.obj q) "referenceTime" isStr toText = .ok none := by
      unfold optIf
      rw [has_obj, bind_ok]
      cases hm : member "referenceTime" (.obj q) with
      | none => rfl
      | some n =>
        rw [Option.isSome_some, if_pos rfl, get_obj q _ _ hm, bind_ok]
        have : isStr n = false := by
          cases n with
          | val ty s => cases ty <;> first | rfl | exact absurd hm (ht s)
          | obj _ => rfl
          | arr _ => rfl
        simp [this]
    simp only [gopReferenceTime, this, bind_ok]
  · rw [reference_text add l q _ ha hp ht]
    have : stoull (c :: t) = .dies := by
      unfold stoull
      simp [h1, h2, h3, leadingDigits, h4]
    rw [this]; rfl

/-! ## Exceptions -/

deriving instance DecidableEq for R

/-- A text where the audio encoder takes a number ends the process; so does an array as preset. -/
theorem wrong_type_ends (add : Option Node → Res) :
    execute add .audioEncoder (apiEvent "configure" [("sampleRate", .val .str "48000".toList)]) = .dies ∧
    execute add .videoEncoder (apiEvent "configure" [("preset", .arr [])]) = .dies ∧
    execute add .videoSplitter (apiEvent "configCrop" [("id", intNode 1), ("width", intNode 10), ("height", intNode 10),
      ("x", intNode 0), ("y", intNode 0), ("degree", .val .str "90".toList)]) = .dies := by
  refine ⟨?_, ?_, ?_⟩
  · rw [api_execute add .audioEncoder "configure" _ (List.mem_of_getElem? (i := 0) rfl) (by decide)]; decide +kernel
  · rw [api_execute add .videoEncoder "configure" _ (List.mem_of_getElem? (i := 0) rfl) (by decide)]; decide +kernel
  · rw [api_execute add .videoSplitter "configCrop" _ (List.mem_of_getElem? (i := 0) rfl) (by decide)]; decide +kernel

/-- A parameter of the wrong type is passed over by the video encoder, and the mixer does not take a width without a height; both
report the event as carried out. -/
theorem wrong_type_ignored (add : Option Node → Res) :
    execute add .videoEncoder (apiEvent "configure" [("bitrate", .val .str "5000".toList), ("fps", intNode 25)]) =
      .ok (.called "configure".toList [none, some (.int 25), none, none, none, none, none, none, none]) ∧
    execute add .videoMixer (apiEvent "configure" [("width", intNode 1280), ("fps", intNode 25)]) =
      .ok (.called "configure".toList [none, none, some (.int 25)]) := by
  refine ⟨?_, ?_⟩
  · rw [api_execute add .videoEncoder "configure" _ (List.mem_of_getElem? (i := 0) rfl) (by decide)]; decide +kernel
  · rw [api_execute add .videoMixer "configure" _ (List.mem_of_getElem? (i := 1) rfl) (by decide)]; decide +kernel

/-- `null` is taken for the number zero, the truth value false and the text null. -/
theorem null_taken (add : Option Node → Res) :
    execute add .audioMixer (apiEvent "muteChannel" [("id", .val .null [])]) = .ok (.called "muteChannel".toList [some (.int 0)]) ∧
    execute add .demuxer (apiEvent "configure" [("uri", .val .null [])]) =
      .ok (.called "configure".toList [some (.text "null".toList)]) := by
  refine ⟨?_, ?_⟩
  · rw [api_execute add .audioMixer "muteChannel" _ (List.mem_of_getElem? (i := 1) rfl) (by decide)]; decide +kernel
  · rw [api_execute add .demuxer "configure" _ (List.mem_of_getElem? (i := 0) rfl) (by decide)]; decide +kernel

/-- Without parameters three events follow a null pointer. -/
theorem no_params_undefined (add : Option Node → Res) :
    execute add .receiver (object [("action", ofString "removeSession".toList)]) = .ub ∧
    execute add .capture (object [("action", ofString "configure".toList)]) = .ub ∧
    execute add .videoEncoder (object [("action", ofString "gopReferenceTime".toList)]) = .ub := by
  refine ⟨?_, ?_, ?_⟩
  · exact (event_by_table add .receiver _ "removeSession" _ (List.mem_of_getElem? (i := 0) rfl) (by decide +kernel)).trans (by decide +kernel)
  · exact (event_by_table add .capture _ "configure" _ (List.mem_of_getElem? (i := 0) rfl) (by decide +kernel)).trans (by decide +kernel)
  · exact (reference_wrong add _ (by decide +kernel)).1 (by decide +kernel)

end Lms.FilterEvents
