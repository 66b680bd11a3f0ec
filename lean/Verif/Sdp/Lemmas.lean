import Verif.Sdp.Spec

namespace Lms.Sdp

theorem cut_ne_nil (c : Char) (s : Str) : cut c s ≠ [] := by
  cases s with
  | nil => simp [cut]
  | cons x s =>
    unfold cut
    split
    · simp
    · split <;> simp

theorem cut_free {c : Char} {a : Str} (h : c ∉ a) : cut c a = [a] := by
  induction a with
  | nil => rfl
  | cons x s ih =>
    have h1 : x ≠ c := fun e => h (by simp [e])
    have h2 : c ∉ s := fun e => h (List.mem_cons_of_mem _ e)
    rw [cut, if_neg h1, ih h2]

theorem cut_append {c : Char} {a : Str} (h : c ∉ a) (s : Str) : cut c (a ++ c :: s) = a :: cut c s := by
  induction a with
  | nil => simp [cut]
  | cons x a ih =>
    have h1 : x ≠ c := fun e => h (by simp [e])
    have h2 : c ∉ a := fun e => h (List.mem_cons_of_mem _ e)
    rw [List.cons_append, cut, if_neg h1, ih h2]

theorem after_append (p s : Str) : after p (p ++ s) = some s := by
  simp [after]

/-! ## Decimal numbers -/

theorem digit_ok : ∀ k < 10, '0' ≤ Char.ofNat (48 + k) ∧ Char.ofNat (48 + k) ≤ '9' ∧ (Char.ofNat (48 + k)).toNat - 48 = k := by decide

theorem dec_digits (n : Nat) : (dec n).all (fun c => '0' ≤ c ∧ c ≤ '9') = true := by
  induction n using Nat.strongRecOn with
  | _ n ih =>
    rw [dec]
    split
    · rename_i h
      have := digit_ok n h
      simp [this.1, this.2.1]
    · rename_i h
      have := digit_ok (n % 10) (by omega)
      rw [List.all_append, ih (n / 10) (by omega)]
      simp [this.1, this.2.1]

theorem dec_ne_nil (n : Nat) : dec n ≠ [] := by
  rw [dec]; split <;> simp

theorem dec_value (n : Nat) : (dec n).foldl (fun n c => 10 * n + (c.toNat - 48)) 0 = n := by
  induction n using Nat.strongRecOn with
  | _ n ih =>
    rw [dec]
    split
    · rename_i h
      have := digit_ok n h
      simp only [List.foldl_cons, List.foldl_nil, this.2.2]; omega
    · rename_i h
      have := digit_ok (n % 10) (by omega)
      rw [List.foldl_append, ih (n / 10) (by omega)]
      simp only [List.foldl_cons, List.foldl_nil, this.2.2]; omega

theorem readDec_dec (n : Nat) : readDec (dec n) = some n := by
  rw [readDec, if_pos ⟨dec_ne_nil n, dec_digits n⟩, dec_value]

theorem dec_free (n : Nat) {c : Char} (hc : ¬('0' ≤ c ∧ c ≤ '9')) : c ∉ dec n := by
  intro h
  have := List.all_eq_true.mp (dec_digits n) c h
  simp only [decide_eq_true_eq] at this
  exact hc this

theorem dec_nl (n : Nat) : '\n' ∉ dec n := dec_free n (by decide)
theorem dec_sp (n : Nat) : ' ' ∉ dec n := dec_free n (by decide)
theorem dec_sl (n : Nat) : '/' ∉ dec n := dec_free n (by decide)

/-! ## Sections -/

theorem sections_plain {ls : List Str} (h : ∀ l ∈ ls, ¬("m=".toList <+: l)) (rest : List Str) :
    sections (ls ++ rest) = (ls ++ (sections rest).1, (sections rest).2) := by
  induction ls with
  | nil => rfl
  | cons l ls ih =>
    rw [List.cons_append, sections, if_neg (h l (by simp)), ih (fun x hx => h x (List.mem_cons_of_mem _ hx))]
    rfl

theorem sections_media {m : Str} {ls : List Str} (hm : "m=".toList <+: m) (h : ∀ l ∈ ls, ¬("m=".toList <+: l)) (rest : List Str) :
    sections (m :: (ls ++ rest)) = ([], (m :: (ls ++ (sections rest).1)) :: (sections rest).2) := by
  rw [sections, if_pos hm, sections_plain h]

/-- An empty line at the end says nothing. -/
theorem readMedia_blank (m : Str) (ls : List Str) : readMedia (m :: (ls ++ [[]])) = readMedia (m :: ls) := by
  have h1 : (after "b=AS:".toList ([] : Str)) = none := by decide
  have h2 : (after "a=rtpmap:".toList ([] : Str)) = none := by decide
  have h3 : (after "a=fmtp:".toList ([] : Str)) = none := by decide
  simp only [readMedia, List.filterMap_append, List.filterMap_cons, List.filterMap_nil, h1, h2, h3, Option.bind_none, List.append_nil]

/-! ## The lines of a stream -/

/-- Lines after the media line. -/
def tailLines (pt : Nat) (s : Sub) : List Str :=
  ["c=IN IP4 127.0.0.1".toList, "b=AS:".toList ++ dec (u32 s.bandwidth)] ++
  (if pt < 96 then [] else
    ["a=rtpmap:".toList ++ (dec pt ++ ' ' :: (s.codec ++ '/' :: (dec (u32 s.freq) ++ (if u32 s.channels ≠ 0 then '/' :: dec (u32 s.channels) else []))))] ++
    ((if s.codec = "H264".toList then ["a=fmtp:".toList ++ (dec pt ++ ' ' :: "packetization-mode=1".toList)] else []) ++
     (if s.codec = "MPEG4-GENERIC".toList ∧ s.medium = "audio".toList then
       ["a=fmtp:".toList ++ (dec pt ++ ' ' :: "streamtype=5;profile-level-id=1;mode=AAC-hbr;sizelength=13;indexlength=3;indexdeltalength=3".toList)] else [])))

/-- The media line. -/
def mLine (pt : Nat) (s : Sub) : Str := "m=".toList ++ (s.medium ++ ' ' :: (dec (u32 s.port) ++ ' ' :: ("RTP/AVP".toList ++ ' ' :: dec pt)))

/-- Text made of lines ended by newlines. -/
def unl (ls : List Str) : Str := ls.flatMap (· ++ ['\n'])

theorem cut_unl {ls : List Str} (h : ∀ l ∈ ls, '\n' ∉ l) (t : Str) : cut '\n' (unl ls ++ t) = ls ++ cut '\n' t := by
  induction ls with
  | nil => rfl
  | cons l ls ih =>
    have : unl (l :: ls) ++ t = l ++ '\n' :: (unl ls ++ t) := by simp [unl]
    rw [this, cut_append (h l (by simp)), ih (fun x hx => h x (List.mem_cons_of_mem _ hx))]; rfl

theorem unl_append (a b : List Str) : unl (a ++ b) = unl a ++ unl b := by simp [unl]
theorem unl_cons (l : Str) (b : List Str) : unl (l :: b) = l ++ '\n' :: unl b := by simp [unl]
theorem unl_nil : unl [] = [] := rfl

theorem subText_lines (pt : Nat) (s : Sub) : subText pt s = unl (mLine pt s :: tailLines pt s) := by
  unfold subText tailLines mLine
  by_cases hp : pt < 96
  · simp [hp, unl]
  · by_cases hc : u32 s.channels = 0
    · by_cases h4 : s.codec = "H264".toList
      · have hx : ¬("H264".toList = "MPEG4-GENERIC".toList) := by decide
        simp [hp, hc, h4, unl]
      · by_cases h5 : s.codec = "MPEG4-GENERIC".toList ∧ s.medium = "audio".toList
        · simp [hp, hc, h4, h5, unl]
        · simp only [hp, hc, h4, h5, unl, if_false]; simp
    · by_cases h4 : s.codec = "H264".toList
      · simp [hp, hc, h4, unl]
      · by_cases h5 : s.codec = "MPEG4-GENERIC".toList ∧ s.medium = "audio".toList
        · simp [hp, hc, h4, h5, unl]
        · simp only [hp, hc, h4, h5, unl, if_false]; simp

theorem codec_cases {c : Str} {pt : Nat} (h : payloadOf c = some pt) :
    (pt = 97 ∧ (c = "pcmu".toList ∨ c = "opus".toList ∨ c = "pcm".toList ∨ c = "MPEG4-GENERIC".toList)) ∨
    (pt = 14 ∧ c = "mp3".toList) ∨ (pt = 96 ∧ c = "H264".toList) := by
  unfold payloadOf at h
  split at h
  · rename_i hc; simp only [Option.some.injEq] at h; exact Or.inl ⟨h.symm, hc⟩
  · split at h
    · rename_i hc; simp only [Option.some.injEq] at h; exact Or.inr (Or.inl ⟨h.symm, hc⟩)
    · split at h
      · rename_i hc; simp only [Option.some.injEq] at h; exact Or.inr (Or.inr ⟨h.symm, hc⟩)
      · cases h

theorem codec_free {c : Str} {pt : Nat} (h : payloadOf c = some pt) : '\n' ∉ c ∧ ' ' ∉ c ∧ '/' ∉ c := by
  rcases codec_cases h with ⟨_, h | h | h | h⟩ | ⟨_, h⟩ | ⟨_, h⟩ <;> subst h <;> decide

end Lms.Sdp
