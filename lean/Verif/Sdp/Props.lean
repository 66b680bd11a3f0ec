import Verif.Sdp.Lemmas

/-!
# C60: descriptions made for plain RTP streams read back; C61: renaming a description
-/

namespace Lms.Sdp

theorem after_other {x y : Char} (h : x ≠ y) (p s : Str) : after (x :: p) (y :: s) = none := by
  rw [after, if_neg]
  intro hp
  exact h (List.cons_prefix_cons.mp hp).1

theorem b_map (s : Str) : after "b=AS:".toList ("a=rtpmap:".toList ++ s) = none := after_other (by decide) _ _
theorem b_fmt (s : Str) : after "b=AS:".toList ("a=fmtp:".toList ++ s) = none := after_other (by decide) _ _
theorem b_c : after "b=AS:".toList "c=IN IP4 127.0.0.1".toList = none := by decide
theorem map_b (s : Str) : after "a=rtpmap:".toList ("b=AS:".toList ++ s) = none := after_other (by decide) _ _
theorem map_c : after "a=rtpmap:".toList "c=IN IP4 127.0.0.1".toList = none := by decide
theorem map_fmt (s : Str) : after "a=rtpmap:".toList ("a=fmtp:".toList ++ s) = none := by
  rw [after, if_neg]
  intro hp
  have h2 := (List.cons_prefix_cons.mp hp).2
  have h3 := (List.cons_prefix_cons.mp h2).2
  exact absurd (List.cons_prefix_cons.mp h3).1 (by decide)
theorem fmt_b (s : Str) : after "a=fmtp:".toList ("b=AS:".toList ++ s) = none := after_other (by decide) _ _
theorem fmt_c : after "a=fmtp:".toList "c=IN IP4 127.0.0.1".toList = none := by decide
theorem fmt_map (s : Str) : after "a=fmtp:".toList ("a=rtpmap:".toList ++ s) = none := by
  rw [after, if_neg]
  intro hp
  have h2 := (List.cons_prefix_cons.mp hp).2
  have h3 := (List.cons_prefix_cons.mp h2).2
  exact absurd (List.cons_prefix_cons.mp h3).1 (by decide)

theorem not_m {x : Char} (h : x ≠ 'm') (s : Str) : ¬("m=".toList <+: x :: s) := fun hp =>
  h (List.cons_prefix_cons.mp hp).1.symm

theorem tail_not_m (pt : Nat) (s : Sub) : ∀ l ∈ tailLines pt s, ¬("m=".toList <+: l) := by
  intro l hl
  have : ∃ x t, l = x :: t ∧ x ≠ 'm' := by
    unfold tailLines at hl
    simp only [List.mem_append, List.mem_cons, List.not_mem_nil, or_false] at hl
    rcases hl with (h | h) | h
    · exact ⟨'c', _, h, by decide⟩
    · exact ⟨'b', _, h, by decide⟩
    · split at h
      · simp at h
      · rw [List.mem_append, List.mem_append] at h
        rcases h with h | h | h
        · rw [List.mem_singleton] at h; exact ⟨'a', _, h, by decide⟩
        · split at h
          · rw [List.mem_singleton] at h; exact ⟨'a', _, h, by decide⟩
          · simp at h
        · split at h
          · rw [List.mem_singleton] at h; exact ⟨'a', _, h, by decide⟩
          · simp at h
  obtain ⟨x, t, rfl, hx⟩ := this
  exact not_m hx t

theorem lines_free {pt : Nat} {s : Sub} (hp : payloadOf s.codec = some pt) (hm : '\n' ∉ s.medium) :
    ∀ l ∈ mLine pt s :: tailLines pt s, '\n' ∉ l := by
  have hc := (codec_free hp).1
  intro l hl
  rw [List.mem_cons] at hl
  rcases hl with h | h
  · subst h
    simp only [mLine, List.mem_append, List.mem_cons, not_or]
    exact ⟨by decide, hm, by decide, dec_nl _, by decide, by decide, by decide, dec_nl _⟩
  · unfold tailLines at h
    simp only [List.mem_append, List.mem_cons, List.not_mem_nil, or_false] at h
    rcases h with (h | h) | h
    · subst h; decide
    · subst h; rw [List.mem_append, not_or]; exact ⟨by decide, dec_nl _⟩
    · split at h
      · simp at h
      · rw [List.mem_append, List.mem_append] at h
        rcases h with h | h | h
        · rw [List.mem_singleton] at h; subst h
          simp only [List.mem_append, List.mem_cons, not_or]
          refine ⟨by decide, dec_nl _, by decide, hc, by decide, dec_nl _, ?_⟩
          split
          · simp only [List.mem_cons, not_or]; exact ⟨by decide, dec_nl _⟩
          · simp
        · split at h
          · rw [List.mem_singleton] at h; subst h
            simp only [List.mem_append, List.mem_cons, not_or]
            exact ⟨by decide, dec_nl _, by decide, by decide⟩
          · simp at h
        · split at h
          · rw [List.mem_singleton] at h; subst h
            rw [List.mem_append, List.mem_append, List.mem_cons, not_or, not_or, not_or]
            exact ⟨by decide, dec_nl _, by decide, by decide +kernel⟩
          · simp at h

theorem readFmtp_line (pt : Nat) {e : Str} (he : ' ' ∉ e) : readFmtp pt (dec pt ++ ' ' :: e) = some e := by
  rw [readFmtp, cut_append (dec_sp pt), cut_free he]
  simp [readDec_dec]

theorem readMap_line (pt : Nat) {c : Str} (h1 : ' ' ∉ c) (h2 : '/' ∉ c) (f ch : Nat) :
    readMap pt (dec pt ++ ' ' :: (c ++ '/' :: (dec f ++ (if ch ≠ 0 then '/' :: dec ch else [])))) =
    some (c, f, if ch = 0 then none else some ch) := by
  have hs : ' ' ∉ c ++ '/' :: (dec f ++ (if ch ≠ 0 then '/' :: dec ch else [])) := by
    simp only [List.mem_append, List.mem_cons, not_or]
    refine ⟨h1, by decide, dec_sp _, ?_⟩
    split
    · simp only [List.mem_cons, not_or]; exact ⟨by decide, dec_sp _⟩
    · simp
  rw [readMap, cut_append (dec_sp pt), cut_free hs]
  simp only [readDec_dec, if_true]
  rw [cut_append h2]
  by_cases h : ch = 0
  · simp only [h, ne_eq, not_true_eq_false, if_false, List.append_nil, if_true]
    rw [cut_free (dec_sl f)]
    simp [readDec_dec]
  · simp only [h, ne_eq, not_false_eq_true, if_true, if_false]
    rw [cut_append (dec_sl f), cut_free (dec_sl ch)]
    simp [readDec_dec]

theorem readMedia_shape {med : Str} (hm : ' ' ∉ med) (port pt bw : Nat) (maps fms : List Str) (hf : ∀ e ∈ fms, ' ' ∉ e) :
    readMedia (("m=".toList ++ (med ++ ' ' :: (dec port ++ ' ' :: ("RTP/AVP".toList ++ ' ' :: dec pt)))) ::
      (["c=IN IP4 127.0.0.1".toList, "b=AS:".toList ++ dec bw] ++
        (maps.map ("a=rtpmap:".toList ++ ·) ++ fms.map fun e => "a=fmtp:".toList ++ (dec pt ++ ' ' :: e)))) =
    some { medium := med, port := port, format := pt, bandwidth := some bw, rtpmap := (maps.filterMap (readMap pt)).head?, fmtp := fms } := by
  have h1 : cut ' ' (med ++ ' ' :: (dec port ++ ' ' :: ("RTP/AVP".toList ++ ' ' :: dec pt))) =
      [med, dec port, "RTP/AVP".toList, dec pt] := by
    rw [cut_append hm, cut_append (dec_sp _), cut_append (by decide), cut_free (dec_sp _)]
  have hb : (fun l => (after "b=AS:".toList l).bind readDec) ∘ (fun e => "a=fmtp:".toList ++ (dec pt ++ ' ' :: e)) = fun _ => none := by
    funext e; simp only [Function.comp, b_fmt, Option.bind_none]
  have hb' : (fun l => (after "b=AS:".toList l).bind readDec) ∘ (fun e => "a=rtpmap:".toList ++ e) = fun _ => none := by
    funext e; simp only [Function.comp, b_map, Option.bind_none]
  have hr : (fun l => (after "a=rtpmap:".toList l).bind (readMap pt)) ∘ (fun e => "a=fmtp:".toList ++ (dec pt ++ ' ' :: e)) = fun _ => none := by
    funext e; simp only [Function.comp, map_fmt, Option.bind_none]
  have hr' : (fun l => (after "a=rtpmap:".toList l).bind (readMap pt)) ∘ (fun e => "a=rtpmap:".toList ++ e) = readMap pt := by
    funext e; simp only [Function.comp, after_append, Option.bind_some]
  have hg' : (fun l => (after "a=fmtp:".toList l).bind (readFmtp pt)) ∘ (fun e => "a=rtpmap:".toList ++ e) = fun _ => none := by
    funext e; simp only [Function.comp, fmt_map, Option.bind_none]
  have hg : fms.filterMap ((fun l => (after "a=fmtp:".toList l).bind (readFmtp pt)) ∘ (fun e => "a=fmtp:".toList ++ (dec pt ++ ' ' :: e))) = fms := by
    clear h1 hb hb' hr hr' hg'
    induction fms with
    | nil => rfl
    | cons e fms ih =>
      rw [List.filterMap_cons]
      simp only [Function.comp, after_append, Option.bind_some, readFmtp_line pt (hf e (by simp))]
      congr 1
      exact ih fun x hx => hf x (List.mem_cons_of_mem _ hx)
  have hn : ∀ {α : Type} (l : List Str), l.filterMap (fun _ => (none : Option α)) = [] := fun l => by
    induction l with
    | nil => rfl
    | cons x l ih => rw [List.filterMap_cons]; exact ih
  unfold readMedia
  simp only [after_append, Option.bind_some, h1, if_true, readDec_dec, Option.map_some, List.filterMap_append, List.filterMap_cons, List.filterMap_nil,
    List.filterMap_map, b_c, map_b, map_c, fmt_b, fmt_c, Option.bind_none, hb, hb', hr, hr', hg, hg', hn, List.append_nil, List.nil_append]
  rfl

theorem readMedia_sub {pt : Nat} {s : Sub} (hp : payloadOf s.codec = some pt) (hm : ' ' ∉ s.medium) :
    readMedia (mLine pt s :: tailLines pt s) = wanted s := by
  obtain ⟨_, hsp, hsl⟩ := codec_free hp
  have hrt := readMap_line pt hsp hsl (u32 s.freq) (u32 s.channels)
  obtain ⟨rt, hrtd⟩ : ∃ rt, rt = dec pt ++ ' ' :: (s.codec ++ '/' :: (dec (u32 s.freq) ++ (if u32 s.channels ≠ 0 then '/' :: dec (u32 s.channels) else []))) := ⟨_, rfl⟩
  have hf1 : ' ' ∉ "packetization-mode=1".toList := by decide
  have hf2 : ' ' ∉ "streamtype=5;profile-level-id=1;mode=AAC-hbr;sizelength=13;indexlength=3;indexdeltalength=3".toList := by decide +kernel
  have shape := fun maps fms => readMedia_shape (maps := maps) (fms := fms) hm (u32 s.port) pt (u32 s.bandwidth)
  unfold mLine tailLines wanted
  rw [← hrtd] at hrt ⊢
  rcases codec_cases hp with ⟨rfl, h⟩ | ⟨rfl, h⟩ | ⟨rfl, h⟩
  · have e1 : s.codec ≠ "mp3".toList := by rcases h with h | h | h | h <;> rw [h] <;> decide
    have e2 : s.codec ≠ "H264".toList := by rcases h with h | h | h | h <;> rw [h] <;> decide
    rw [if_neg (by decide), if_neg e2]
    simp only [if_neg e1, if_neg e2]
    by_cases h5 : s.codec = "MPEG4-GENERIC".toList
    · rw [if_pos h5]
      by_cases h6 : s.medium = "audio".toList
      · rw [if_pos ⟨h5, h6⟩, if_pos h6]
        refine (shape [rt] ["streamtype=5;profile-level-id=1;mode=AAC-hbr;sizelength=13;indexlength=3;indexdeltalength=3".toList] ?_).trans ?_
        · intro e he; rw [List.mem_singleton] at he; rw [he]; exact hf2
        · rw [List.filterMap_cons, hrt]; rfl
      · rw [if_neg (fun h => h6 h.2), if_neg h6]
        refine (shape [rt] [] (fun e he => absurd he List.not_mem_nil)).trans ?_
        rw [List.filterMap_cons, hrt]; rfl
    · have h8 : s.codec = "opus".toList ∨ s.codec = "pcm".toList ∨ s.codec = "pcmu".toList := by
        rcases h with h | h | h | h
        · exact Or.inr (Or.inr h)
        · exact Or.inl h
        · exact Or.inr (Or.inl h)
        · exact absurd h h5
      rw [if_neg h5, if_pos h8, if_neg (fun h => h5 h.1)]
      refine (shape [rt] [] (fun e he => absurd he List.not_mem_nil)).trans ?_
      rw [List.filterMap_cons, hrt]; rfl
  · rw [if_pos (by decide)]
    simp only [if_pos h]
    exact shape [] [] (fun e he => absurd he List.not_mem_nil)
  · have e1 : s.codec ≠ "mp3".toList := by rw [h]; decide
    have e3 : ¬(s.codec = "MPEG4-GENERIC".toList ∧ s.medium = "audio".toList) := by
      intro hx; rw [h] at hx; exact absurd hx.1 (by decide)
    rw [if_neg (by decide), if_neg e3]
    simp only [if_neg e1, if_pos h]
    refine (shape [rt] ["packetization-mode=1".toList] ?_).trans ?_
    · intro e he; rw [List.mem_singleton] at he; rw [he]; exact hf1
    · rw [List.filterMap_cons, hrt]; rfl

/-- All entries of a request: the sections read back as what was asked for, and the last one may end with an empty line. -/
theorem sections_subs (l : List Sub) (h : ∀ s ∈ l, '\n' ∉ s.medium ∧ ' ' ∉ s.medium) {t : Str} (ht : subsText l = some t) :
    ((sections (cut '\n' t)).1 = [] ∨ (sections (cut '\n' t)).1 = [[]]) ∧ (sections (cut '\n' t)).2.mapM readMedia = l.mapM wanted := by
  induction l generalizing t with
  | nil =>
    simp only [subsText, Option.some.injEq] at ht
    subst ht
    refine ⟨Or.inr (by decide), by decide⟩
  | cons s l ih =>
    rw [subsText] at ht
    cases hp : payloadOf s.codec with
    | none => simp [hp] at ht
    | some pt =>
      simp only [hp] at ht
      cases hl : subsText l with
      | none => simp [hl] at ht
      | some t' =>
        simp only [hl, Option.map_some, Option.some.injEq] at ht
        subst ht
        obtain ⟨i1, i2⟩ := ih (fun x hx => h x (List.mem_cons_of_mem _ hx)) hl
        obtain ⟨hm1, hm2⟩ := h s (by simp)
        rw [subText_lines, cut_unl (lines_free hp hm1), List.cons_append,
          sections_media (m := mLine pt s) ⟨_, rfl⟩ (tail_not_m pt s)]
        refine ⟨Or.inl rfl, ?_⟩
        have hr : readMedia (mLine pt s :: (tailLines pt s ++ (sections (cut '\n' t')).1)) = wanted s := by
          rcases i1 with i1 | i1
          · rw [i1, List.append_nil, readMedia_sub hp hm2]
          · rw [i1, readMedia_blank, readMedia_sub hp hm2]
        rw [List.mapM_cons, List.mapM_cons, hr, i2]

/-- C60: whatever the session is called (without a newline) and whatever streams are asked for (media names without
spaces and newlines), the description made for them reads back as that name and exactly those streams, in their order, each
with its port, bandwidth, payload number, codec, rate and channels. -/
theorem description_reads_back (id : Str) (l : List Sub) (hid : '\n' ∉ id) (h : ∀ s ∈ l, '\n' ∉ s.medium ∧ ' ' ∉ s.medium)
    {t : Str} (ht : describe id l = some t) :
    ∃ ms, l.mapM wanted = some ms ∧ read t = some { name := some id, media := ms } := by
  unfold describe at ht
  cases hl : subsText l with
  | none => simp [hl] at ht
  | some t' =>
    simp only [hl, Option.map_some, Option.some.injEq] at ht
    subst ht
    obtain ⟨i1, i2⟩ := sections_subs l h hl
    have hs : sessionText id "this is a test".toList =
        unl ["v=0".toList, "o=- 0 0 IN IP4 127.0.0.1".toList, "s=".toList ++ id, "i=this is a test".toList, "t= 0 0".toList] := by
      simp [sessionText, unl]
    have hfree : ∀ x ∈ ["v=0".toList, "o=- 0 0 IN IP4 127.0.0.1".toList, "s=".toList ++ id, "i=this is a test".toList, "t= 0 0".toList], '\n' ∉ x := by
      intro x hx
      simp only [List.mem_cons, List.not_mem_nil, or_false] at hx
      rcases hx with h | h | h | h | h <;> subst h
      · decide
      · decide
      · rw [List.mem_append, not_or]; exact ⟨by decide, hid⟩
      · decide
      · decide
    have hnm : ∀ x ∈ ["v=0".toList, "o=- 0 0 IN IP4 127.0.0.1".toList, "s=".toList ++ id, "i=this is a test".toList, "t= 0 0".toList], ¬("m=".toList <+: x) := by
      intro x hx
      simp only [List.mem_cons, List.not_mem_nil, or_false] at hx
      rcases hx with h | h | h | h | h <;> subst h
      · decide
      · decide
      · exact not_m (by decide) _
      · decide
      · decide
    obtain ⟨ms, hms⟩ : ∃ ms, l.mapM wanted = some ms := by
      clear i1 i2 hs hfree hnm h
      induction l generalizing t' with
      | nil => exact ⟨[], rfl⟩
      | cons s l ih =>
        rw [subsText] at hl
        cases hp : payloadOf s.codec with
        | none => simp [hp] at hl
        | some pt =>
          simp only [hp] at hl
          cases hl' : subsText l with
          | none => simp [hl'] at hl
          | some t'' =>
            obtain ⟨ms, hms⟩ := ih _ hl'
            have : ∃ m, wanted s = some m := by
              unfold wanted
              by_cases n1 : s.codec = "mp3".toList
              · rw [if_pos n1]; exact ⟨_, rfl⟩
              rw [if_neg n1]
              by_cases n2 : s.codec = "H264".toList
              · rw [if_pos n2]; exact ⟨_, rfl⟩
              rw [if_neg n2]
              by_cases n3 : s.codec = "MPEG4-GENERIC".toList
              · rw [if_pos n3]; exact ⟨_, rfl⟩
              rw [if_neg n3, if_pos]
              · exact ⟨_, rfl⟩
              · rcases codec_cases hp with ⟨_, h | h | h | h⟩ | ⟨_, h⟩ | ⟨_, h⟩
                · exact Or.inr (Or.inr h)
                · exact Or.inl h
                · exact Or.inr (Or.inl h)
                · exact absurd h n3
                · exact absurd h n1
                · exact absurd h n2
            obtain ⟨m, hm⟩ := this
            exact ⟨m :: ms, by rw [List.mapM_cons, hm, hms]; rfl⟩
    refine ⟨ms, hms, ?_⟩
    unfold read
    simp only [hs, cut_unl hfree, sections_plain hnm, i2, hms, Option.map_some]
    congr 2

/-- C60: a request is refused, as a whole, exactly when one of its codecs is not among the six known. -/
theorem refused_iff (id : Str) (l : List Sub) :
    describe id l = none ↔ ∃ s ∈ l, s.codec ∉ ["pcmu".toList, "opus".toList, "pcm".toList, "MPEG4-GENERIC".toList, "mp3".toList, "H264".toList] := by
  have key : ∀ c : Str, payloadOf c = none ↔ c ∉ ["pcmu".toList, "opus".toList, "pcm".toList, "MPEG4-GENERIC".toList, "mp3".toList, "H264".toList] := by
    intro c
    constructor
    · intro h hm
      simp only [List.mem_cons, List.not_mem_nil, or_false] at hm
      rcases hm with rfl | rfl | rfl | rfl | rfl | rfl <;> exact absurd h (by decide)
    · intro hm
      simp only [List.mem_cons, List.not_mem_nil, or_false, not_or] at hm
      obtain ⟨h1, h2, h3, h4, h5, h6⟩ := hm
      simp only [payloadOf, h1, h2, h3, h4, h5, h6, or_self, if_false]
  unfold describe
  rw [Option.map_eq_none_iff]
  induction l with
  | nil => simp [subsText]
  | cons s l ih =>
    rw [subsText]
    cases hp : payloadOf s.codec with
    | none => exact ⟨fun _ => ⟨s, by simp, (key _).mp hp⟩, fun _ => rfl⟩
    | some pt =>
      simp only [Option.map_eq_none_iff]
      refine Iff.trans ih ?_
      constructor
      · rintro ⟨x, hx, hc⟩; exact ⟨x, List.mem_cons_of_mem _ hx, hc⟩
      · rintro ⟨x, hx, hc⟩
        rw [List.mem_cons] at hx
        rcases hx with rfl | hx
        · rw [← key, hp] at hc; cases hc
        · exact ⟨x, hx, hc⟩

/-- A request with a video and an audio stream. -/
def exampleSubs : List Sub :=
  [{ medium := "video".toList, codec := "H264".toList, bandwidth := 5000, freq := 90000, port := 5004, channels := 0 },
   { medium := "audio".toList, codec := "opus".toList, bandwidth := 192, freq := 48000, port := 5006, channels := 2 }]

/-- Its hypotheses hold and what is read is what was asked for. -/
theorem example_reads_back : (∀ s ∈ exampleSubs, '\n' ∉ s.medium ∧ ' ' ∉ s.medium) ∧
    (describe "8554".toList exampleSubs).bind read = some
      { name := some "8554".toList
        media :=
          [{ medium := "video".toList, port := 5004, format := 96, bandwidth := some 5000, rtpmap := some ("H264".toList, 90000, none), fmtp := ["packetization-mode=1".toList] },
           { medium := "audio".toList, port := 5006, format := 97, bandwidth := some 192, rtpmap := some ("opus".toList, 48000, some 2), fmtp := [] }] } := by
  constructor
  · decide
  · decide +kernel

example : describe "x".toList [{ medium := "video".toList, codec := "H265".toList, bandwidth := 1, freq := 90000, port := 5004, channels := 0 }] = none := by decide

/-- C60, recorded: text taken over as it is: a medium holding a space makes a line with other fields, and nothing is read. -/
theorem unchecked_medium :
    (describe "x".toList [{ medium := "video 9".toList, codec := "mp3".toList, bandwidth := 1, freq := 90000, port := 5004, channels := 0 }]).map read = some none := by
  decide +kernel

/-- C60, recorded: negative numbers are taken and come out as large ones. -/
theorem negative_port :
    ((describe "x".toList [{ medium := "audio".toList, codec := "mp3".toList, bandwidth := 1, freq := 90000, port := -1, channels := 0 }]).bind read).map
      (fun d => d.media.map (·.port)) = some [4294967295] := by
  decide +kernel

end Lms.Sdp
