import Verif.Nalu.Props

/-!
# C52: frames are assembled from NAL units
-/

namespace Lms.Nalu

/-! ## Specification -/

/-- The unit without start code. -/
def payload (n : Nal) : Bytes := strip (n.buf.take n.len)

/-- A received unit: at least four bytes, all of them in its buffer, and not only a start code. -/
def Whole (n : Nal) : Prop := 4 ≤ n.len ∧ n.len ≤ n.buf.length ∧ n.buf.length < 2 ^ 32 ∧ payload n ≠ []

def kindOf (c : Codec) (n : Nal) : Kind :=
  match payload n with
  | [] => .other
  | b :: _ => kind c b

/-- The unit types of the standards (H.264 table 7-1, H.265 table 7-1): the type is in the low five bits of the first
byte, resp. in the six bits after the first. -/
def stdKind (c : Codec) (b : UInt8) : Kind :=
  match c with
  | .avc =>
    let t := (b &&& 31).toNat
    if 1 ≤ t ∧ t ≤ 4 then .slice else if t = 5 then .key else if t = 6 then .sei else if t = 7 then .sps
    else if t = 8 then .pps else if t = 9 then .aud else .other
  | .hevc =>
    let t := ((b >>> 1) &&& 63).toNat
    if t ≤ 9 then .slice else if 16 ≤ t ∧ t ≤ 21 then .key else if t = 32 then .vps else if t = 33 then .sps
    else if t = 34 then .pps else if t = 35 then .aud else if t = 39 ∨ t = 40 then .sei else .other

/-- Slice types the segmenter does not know: H.264 data partitions; H.265 sub-layer, leading and broken-link pictures. -/
def unknownSlice (c : Codec) (b : UInt8) : Bool :=
  match c with
  | .avc => decide (2 ≤ (b &&& 31).toNat ∧ (b &&& 31).toNat ≤ 4)
  | .hevc =>
    let t := ((b >>> 1) &&& 63).toNat
    decide (2 ≤ t ∧ t ≤ 9 ∨ 16 ≤ t ∧ t ≤ 18)

theorem kinds_all : ∀ c ∈ [Codec.avc, .hevc], ∀ n : Fin 256,
    kind c (UInt8.ofNat n.val) = if unknownSlice c (UInt8.ofNat n.val) then .other else stdKind c (UInt8.ofNat n.val) := by
  decide +kernel

/-- **C52, unit types.**  Units are told apart as the standards say, except that some slice types are unknown. -/
theorem kinds_follow_standards (c : Codec) (b : UInt8) :
    kind c b = if unknownSlice c b then .other else stdKind c b := by
  have := kinds_all c (by cases c <;> simp) ⟨b.toNat, b.toNat_lt⟩
  simpa using this

/-- The units of one picture: what precedes its slices, and its slices. -/
structure Picture where
  pre : List Nal
  slices : List Nal
  pts : Int
  dts : Int
  width : Nat
  height : Nat
  key : Bool

def Picture.nals (p : Picture) : List Nal := p.pre ++ p.slices

/-- A well-formed picture: delimiters, parameter sets and SEI first, then at least one slice; all slices carry the
picture's data; all units have its time. -/
structure Picture.Ok (c : Codec) (p : Picture) : Prop where
  pre : ∀ n ∈ p.pre, Whole n ∧ kindOf c n ∈ [Kind.aud, .vps, .sps, .pps, .sei] ∧
    frameTime n.pts n.dts = frameTime p.pts p.dts ∧ (kindOf c n = .sps → 3 ≤ (payload n).length)
  slices : ∀ n ∈ p.slices, Whole n ∧ kindOf c n = (if p.key then .key else .slice) ∧ n.pts = p.pts ∧ n.dts = p.dts ∧
    n.width = p.width ∧ n.height = p.height
  some : p.slices ≠ []

/-- The frame of a picture: its slices with their lengths. -/
def Picture.au (p : Picture) : Au := ⟨sample (p.slices.map payload), p.pts, p.dts, p.width, p.height, p.key⟩

/-- `q` can be told from `p`: it starts with a delimiter or has a later time. -/
def Separated (c : Codec) (p q : Picture) : Prop :=
  (∃ n l, q.nals = n :: l ∧ kindOf c n = .aud) ∨ frameTime p.pts p.dts < frameTime q.pts q.dts

def Chain (c : Codec) : List Picture → Prop
  | [] => True
  | [_] => True
  | p :: q :: l => Separated c p q ∧ Chain c (q :: l)

/-! ## One unit -/

/-- Stored sequence parameter sets are long enough. -/
def SpsOk (s : State) : Prop := s.sps = [] ∨ 3 ≤ s.sps.length

/-- Two states agree on everything but parameter sets. -/
structure Same (a b : State) : Prop where
  codec : a.codec = b.codec
  max : a.max = b.max
  tmp : a.tmp = b.tmp
  out : a.out = b.out
  cur : a.cur = b.cur
  prev : a.prev = b.prev

theorem updateExtra_ok (s : State) (h : SpsOk s) : ∃ s', updateExtra s = .ok s' ∧ Same s' s ∧ SpsOk s' := by
  unfold updateExtra
  cases hc : s.codec with
  | avc =>
    simp only
    split
    · exact ⟨s, rfl, ⟨rfl, rfl, rfl, rfl, rfl, rfl⟩, h⟩
    · rename_i hn
      have h3 : 3 ≤ s.sps.length := h.resolve_left (fun e => hn (.inl e))
      simp only [avcExtra]
      rw [if_neg (by omega)]
      exact ⟨_, rfl, ⟨hc.symm, rfl, rfl, rfl, rfl, rfl⟩, .inl rfl⟩
  | hevc =>
    simp only
    split
    · exact ⟨s, rfl, ⟨rfl, rfl, rfl, rfl, rfl, rfl⟩, h⟩
    · exact ⟨_, rfl, ⟨hc.symm, rfl, rfl, rfl, rfl, rfl⟩, .inl rfl⟩

theorem strip_drop {n : Nal} (h : Whole n) :
    ∃ off, detectStartCode n.buf = .ok off ∧ off < n.len ∧ payload n = (n.buf.drop off).take (n.len - off) ∧
      (payload n).length = n.len - off := by
  obtain ⟨h4, hl, _, hp⟩ := h
  have hd : detectStartCode n.buf = detectStartCode (n.buf.take n.len) := by
    match hb : n.buf, h4, hl with
    | b0 :: b1 :: b2 :: b3 :: r, h4, hl =>
      obtain ⟨k, hk⟩ : ∃ k, n.len = k + 4 := ⟨n.len - 4, by omega⟩
      rw [hk]
      simp only [List.take_succ_cons, detectStartCode]
    | [_, _, _], h4, hl => exact absurd (Nat.le_trans h4 hl) (by simp)
    | [_, _], h4, hl => exact absurd (Nat.le_trans h4 hl) (by simp)
    | [_], h4, hl => exact absurd (Nat.le_trans h4 hl) (by simp)
    | [], h4, hl => exact absurd (Nat.le_trans h4 hl) (by simp)
  have hlen : (n.buf.take n.len).length = n.len := by rw [List.length_take]; omega
  obtain ⟨off, h1, h2⟩ := start_code_removed (n.buf.take n.len) (by omega)
  have hpl : payload n = (n.buf.take n.len).drop off := h2.symm
  have hll : (payload n).length = n.len - off := by rw [hpl, List.length_drop, hlen]
  refine ⟨off, hd.trans h1, ?_, ?_, hll⟩
  · have := List.length_pos_iff.2 hp
    omega
  · rw [hpl, List.drop_take]

/-- `parseNal` on a whole unit of a known kind. -/
theorem parse_whole {s : State} {n : Nal} (h : Whole n) (hk : kindOf s.codec n ≠ .other) :
    parseNal s n =
      (let k := kindOf s.codec n
       let s := note { s with prev := s.cur } k (payload n)
       let e := ends s k n
       let s := if e then { s with tmp := { s.out with data := [] }, out := s.tmp } else s
       if k = .key ∨ k = .slice then
         if s.max < (s.tmp.data.length + (payload n).length + 4) % 2 ^ 32 then .ok (s, if e then some s.out else none)
         else if s.max < s.tmp.data.length + 4 + (payload n).length then .ub
         else .ok ({ s with tmp := ⟨s.tmp.data ++ be32 (payload n).length ++ payload n, n.pts, n.dts, n.width, n.height⟩ },
             if e then some s.out else none)
       else .ok (s, if e then some s.out else none)) := by
  obtain ⟨off, h1, h2, h3, h4⟩ := strip_drop h
  obtain ⟨_, hl, hlt, hp⟩ := h
  obtain ⟨b, r, hbr⟩ : ∃ b r, n.buf.drop off = b :: r := by
    cases hh : n.buf.drop off with
    | nil => rw [hh] at h3; simp at h3; exact absurd h3 hp
    | cons b r => exact ⟨b, r, rfl⟩
  have hkind : kindOf s.codec n = kind s.codec b := by
    have : payload n = b :: r.take (n.len - off - 1) := by
      rw [h3, hbr]
      obtain ⟨m, hm⟩ : ∃ m, n.len - off = m + 1 := ⟨n.len - off - 1, by omega⟩
      rw [hm]; simp
    simp only [kindOf, this]
  have hn : (n.len + 2 ^ 32 - off) % 2 ^ 32 = n.len - off := by omega
  have hsl : ¬ (n.buf.drop off).length < n.len - off := by rw [List.length_drop]; omega
  have hn1 : ¬ (n.len = off ∨ s.codec = .hevc ∧ n.len < off) := by
    rintro (e | ⟨_, e⟩) <;> omega
  simp only [parseNal, h1, Outcome.bind_ok]
  rw [if_neg hn1]
  simp only [hn, ← h3, h4]
  rw [hbr] at hsl h3 ⊢
  simp only [← hkind, if_neg hk, hsl, and_false, if_false, ← h3]
  have app : ∀ (m : Nat) (f : Fr), appendNal m f (b :: r) (n.len - off) n =
      if m < (f.data.length + (payload n).length + 4) % 2 ^ 32 then .ok (f, false)
      else if m < f.data.length + 4 + (payload n).length then .ub
      else .ok (⟨f.data ++ be32 (payload n).length ++ payload n, n.pts, n.dts, n.width, n.height⟩, true) := by
    intro m f
    simp only [appendNal, hsl, or_false, ← h3, h4]
  simp only [app]
  obtain ⟨s1, hs1⟩ : ∃ s1, note { s with prev := s.cur } (kindOf s.codec n) (payload n) = s1 := ⟨_, rfl⟩
  rw [hs1]
  obtain ⟨s2, hs2⟩ : ∃ s2, (if ends s1 (kindOf s.codec n) n = true then
    { s1 with tmp := { s1.out with data := [] }, out := s1.tmp } else s1) = s2 := ⟨_, rfl⟩
  rw [hs2]
  by_cases hks : kindOf s.codec n = Kind.key ∨ kindOf s.codec n = Kind.slice
  · simp only [if_pos hks]
    by_cases c1 : s2.max < (s2.tmp.data.length + (payload n).length + 4) % 2 ^ 32
    · simp only [if_pos c1]; rw [← h4, if_pos c1]; rfl
    · by_cases c2 : s2.max < s2.tmp.data.length + 4 + (payload n).length
      · simp only [if_neg c1, if_pos c2]; rw [← h4, if_neg c1, if_pos c2]; rfl
      · simp only [if_neg c1, if_neg c2]; rw [← h4, if_neg c1, if_neg c2]; rfl
  · simp only [if_neg hks]

def shape (intra : Bool) : Option Fr → Option Au
  | none => none
  | some f => if f.data.length = 0 then none else some ⟨f.data, f.pts, f.dts, f.width, f.height, intra⟩

/-- What `manageFrame` adds to `parseNal`. -/
theorem manage_of_parse {s s1 : State} {n : Nal} {f : Option Fr} (h : parseNal s n = .ok (s1, f)) (hs : SpsOk s1) :
    ∃ s2, manageFrame s n = .ok (s2, shape s1.prev f) ∧
      Same s2 s1 ∧ SpsOk s2 := by
  obtain ⟨s2, h2, h3, h4⟩ := updateExtra_ok s1 hs
  refine ⟨s2, ?_, h3, h4⟩
  cases f <;> simp only [manageFrame, h, Outcome.bind_ok, h2, h3.prev] <;> rfl

theorem note_fields (s : State) (k : Kind) (d : Bytes) : (note s k d).codec = s.codec ∧ (note s k d).max = s.max ∧
    (note s k d).tmp = s.tmp ∧ (note s k d).out = s.out ∧ (note s k d).prev = s.prev := by
  cases k <;> exact ⟨rfl, rfl, rfl, rfl, rfl⟩

theorem note_sps (s : State) (k : Kind) (d : Bytes) (h : SpsOk s) (hd : k = .sps → 3 ≤ d.length) : SpsOk (note s k d) := by
  cases k with
  | sps => exact .inr (hd rfl)
  | _ => exact h

theorem mem_pre {k : Kind} (h : k ∈ [Kind.aud, .vps, .sps, .pps, .sei]) :
    k ≠ .other ∧ ¬ (k = .key ∨ k = .slice) := by
  revert h; cases k <;> decide

/-- The state after a swap. -/
def swap (s : State) (e : Bool) : State := if e then { s with tmp := { s.out with data := [] }, out := s.tmp } else s

theorem swap_fields (s : State) (e : Bool) : (swap s e).codec = s.codec ∧ (swap s e).max = s.max ∧ (swap s e).cur = s.cur ∧
    (swap s e).prev = s.prev ∧ (swap s e).sps = s.sps := by
  cases e <;> exact ⟨rfl, rfl, rfl, rfl, rfl⟩

/-- Invariant of a state between units. -/
structure Inv (c : Codec) (m : Nat) (s : State) : Prop where
  codec : s.codec = c
  max : s.max = m
  sps : SpsOk s

theorem pre_on_empty {c : Codec} {m : Nat} {s : State} {n : Nal} (hi : Inv c m s) (he : s.tmp.data = []) (hw : Whole n)
    (hk : kindOf c n ∈ [Kind.aud, .vps, .sps, .pps, .sei]) (h3 : kindOf c n = .sps → 3 ≤ (payload n).length) :
    ∃ s', manageFrame s n = .ok (s', none) ∧ Inv c m s' ∧ s'.tmp.data = [] := by
  obtain ⟨rfl, rfl, hs⟩ := hi
  obtain ⟨k1, k2⟩ := mem_pre hk
  obtain ⟨s0, hs0⟩ : ∃ s0, s0 = note { s with prev := s.cur } (kindOf s.codec n) (payload n) := ⟨_, rfl⟩
  obtain ⟨n1, n2, n3, n4, n5⟩ := note_fields { s with prev := s.cur } (kindOf s.codec n) (payload n)
  rw [← hs0] at n1 n2 n3 n4 n5
  obtain ⟨e, hee⟩ : ∃ e, e = ends s0 (kindOf s.codec n) n := ⟨_, rfl⟩
  have hsp : SpsOk s0 := by rw [hs0]; exact note_sps _ _ _ hs h3
  have hp : parseNal s n = .ok (swap s0 e, if e then some (swap s0 e).out else none) := by
    rw [parse_whole hw k1]
    simp only [← hs0, ← hee, if_neg k2]
    rfl
  obtain ⟨w1, w2, w3, w4, w5⟩ := swap_fields s0 e
  obtain ⟨s2, h1, h2, h3⟩ := manage_of_parse hp (by unfold SpsOk; rw [w5]; exact hsp)
  refine ⟨s2, ?_, ⟨by rw [h2.codec, w1, n1], by rw [h2.max, w2, n2], h3⟩, ?_⟩
  · rw [h1]
    cases e with
    | false => rfl
    | true =>
      have : (swap s0 true).out.data.length = 0 := by
        show s0.tmp.data.length = 0
        rw [n3]; show s.tmp.data.length = 0; rw [he]; rfl
      simp only [if_true, shape]
      rw [if_pos this]
  · rw [h2.tmp]
    cases e with
    | false => show s0.tmp.data = []; rw [n3]; exact he
    | true => rfl

/-- The frame under assembly is the whole picture `p`. -/
structure Full (c : Codec) (m : Nat) (s : State) (p : Picture) (us : List Bytes) : Prop where
  inv : Inv c m s
  tmp : s.tmp = ⟨sample us, p.pts, p.dts, p.width, p.height⟩
  cur : s.cur = p.key
  ne : us ≠ []

theorem sample_ne {us : List Bytes} (h : us ≠ []) : 0 < (sample us).length := by
  cases us with
  | nil => exact absurd rfl h
  | cons u us =>
    simp only [sample, List.map_cons, List.flatten_cons, List.length_append, be32_length]; omega

theorem ends_full {c : Codec} {s : State} {n : Nal} (hc : s.codec = c) (hne : 0 < s.tmp.data.length)
    (h : kindOf c n = .aud ∨ s.tmp.time < frameTime n.pts n.dts) : ends s (kindOf c n) n = true := by
  unfold ends
  rw [Bool.and_eq_true, Bool.or_eq_true, beq_iff_eq, decide_eq_true_iff]
  refine ⟨h, ?_⟩
  cases s.codec with
  | avc => exact decide_eq_true hne
  | hevc => rfl

theorem pre_on_full {c : Codec} {m : Nat} {s : State} {n : Nal} {p : Picture} {us : List Bytes} (hf : Full c m s p us) (hw : Whole n)
    (hk : kindOf c n ∈ [Kind.aud, .vps, .sps, .pps, .sei]) (h3 : kindOf c n = .sps → 3 ≤ (payload n).length)
    (hsep : kindOf c n = .aud ∨ frameTime p.pts p.dts < frameTime n.pts n.dts) :
    ∃ s', manageFrame s n = .ok (s', some ⟨sample us, p.pts, p.dts, p.width, p.height, p.key⟩) ∧ Inv c m s' ∧
      s'.tmp.data = [] := by
  obtain ⟨⟨rfl, rfl, hs⟩, ht, hcur, hne⟩ := hf
  obtain ⟨k1, k2⟩ := mem_pre hk
  obtain ⟨s0, hs0⟩ : ∃ s0, s0 = note { s with prev := s.cur } (kindOf s.codec n) (payload n) := ⟨_, rfl⟩
  obtain ⟨n1, n2, n3, n4, n5⟩ := note_fields { s with prev := s.cur } (kindOf s.codec n) (payload n)
  rw [← hs0] at n1 n2 n3 n4 n5
  have n3' : s0.tmp = ⟨sample us, p.pts, p.dts, p.width, p.height⟩ := by rw [n3]; exact ht
  have hee : ends s0 (kindOf s.codec n) n = true := by
    have hdd : s0.tmp.data = sample us := by rw [n3']
    have htt : s0.tmp.time = frameTime p.pts p.dts := by rw [n3']; rfl
    apply ends_full
    · exact n1
    · rw [hdd]; exact sample_ne hne
    · rw [htt]; exact hsep
  have hsp : SpsOk s0 := by rw [hs0]; exact note_sps _ _ _ hs h3
  have hp : parseNal s n = .ok (swap s0 true, some s0.tmp) := by
    rw [parse_whole hw k1]
    simp only [← hs0, hee, if_neg k2, if_true]
    rfl
  obtain ⟨w1, w2, w3, w4, w5⟩ := swap_fields s0 true
  obtain ⟨s2, h1, h2, h3⟩ := manage_of_parse hp (by unfold SpsOk; rw [w5]; exact hsp)
  refine ⟨s2, ?_, ⟨by rw [h2.codec, w1, n1], by rw [h2.max, w2, n2], h3⟩, ?_⟩
  · rw [h1]
    have := sample_ne hne
    simp only [n3', w4, n5, hcur, shape]
    rw [if_neg (by omega)]
  · rw [h2.tmp]; rfl

theorem not_pre_slice {p : Picture} {c : Codec} {n : Nal} (h : kindOf c n = if p.key then .key else .slice) :
    kindOf c n ≠ .other ∧ (kindOf c n = .key ∨ kindOf c n = .slice) ∧ kindOf c n ≠ .aud ∧ kindOf c n ≠ .sps := by
  rw [h]; cases p.key <;> decide

/-- A slice: `e` tells whether the frame under assembly ends, `g` is what the slice is appended to. -/
theorem slice_step {c : Codec} {m : Nat} {s : State} {n : Nal} {p : Picture} {e : Bool} (hi : Inv c m s) (hw : Whole n)
    (hk : kindOf c n = if p.key then .key else .slice)
    (hn : n.pts = p.pts ∧ n.dts = p.dts ∧ n.width = p.width ∧ n.height = p.height)
    (he : ∀ s0 : State, s0.codec = c → s0.tmp = s.tmp → ends s0 (kindOf c n) n = e)
    (hm : m < 2 ^ 31) (hfit : (if e then 0 else s.tmp.data.length) + 4 + (payload n).length ≤ m) :
    ∃ s', manageFrame s n = .ok (s', if e = true ∧ s.tmp.data.length ≠ 0 then
        some ⟨s.tmp.data, s.tmp.pts, s.tmp.dts, s.tmp.width, s.tmp.height, s.cur⟩ else none) ∧ Inv c m s' ∧
      s'.cur = p.key ∧
      s'.tmp = ⟨(if e then [] else s.tmp.data) ++ be32 (payload n).length ++ payload n, p.pts, p.dts, p.width, p.height⟩ := by
  obtain ⟨rfl, rfl, hs⟩ := hi
  obtain ⟨k1, k2, k3, k4⟩ := not_pre_slice hk
  obtain ⟨s0, hs0⟩ : ∃ s0, s0 = note { s with prev := s.cur } (kindOf s.codec n) (payload n) := ⟨_, rfl⟩
  obtain ⟨n1, n2, n3, n4, n5⟩ := note_fields { s with prev := s.cur } (kindOf s.codec n) (payload n)
  rw [← hs0] at n1 n2 n3 n4 n5
  have hcur : s0.cur = p.key := by rw [hs0, hk]; cases p.key <;> rfl
  have hee := he s0 n1 n3
  have hsp : SpsOk s0 := by rw [hs0]; exact note_sps _ _ _ hs (fun h => absurd h k4)
  obtain ⟨w1, w2, w3, w4, w5⟩ := swap_fields s0 e
  have n3' : s0.tmp = s.tmp := n3
  have hdata : (swap s0 e).tmp.data = if e then [] else s.tmp.data := by
    cases e with
    | true => rfl
    | false => show s0.tmp.data = _; rw [n3']; rfl
  have hdl : (swap s0 e).tmp.data.length = if e then 0 else s.tmp.data.length := by rw [hdata]; cases e <;> rfl
  obtain ⟨L, hL⟩ : ∃ L, (if e = true then 0 else s.tmp.data.length) = L := ⟨_, rfl⟩
  rw [hL] at hfit hdl
  have hmax : (swap s0 e).max = s.max := by rw [w2, n2]
  have hp : parseNal s n = .ok ({ swap s0 e with
      tmp := ⟨(swap s0 e).tmp.data ++ be32 (payload n).length ++ payload n, n.pts, n.dts, n.width, n.height⟩ },
      if e then some s.tmp else none) := by
    rw [parse_whole hw k1]
    simp only [← hs0, hee, if_pos k2]
    have hsw : (if e = true then { s0 with tmp := { s0.out with data := [] }, out := s0.tmp } else s0) = swap s0 e := rfl
    rw [hsw, if_neg (by rw [hdl, hmax]; omega), if_neg (by rw [hdl, hmax]; omega)]
    congr 2
    cases e with
    | false => rfl
    | true => simp only [if_true]; congr 1
  obtain ⟨s2, h1, h2, h3⟩ := manage_of_parse hp (by
    show (swap s0 e).sps = [] ∨ 3 ≤ (swap s0 e).sps.length
    rw [w5]; exact hsp)
  refine ⟨s2, ?_, ⟨by rw [h2.codec]; exact w1.trans n1, by rw [h2.max]; exact hmax, h3⟩, ?_, ?_⟩
  · rw [h1]
    have hprev : (swap s0 e).prev = s.cur := by rw [w4, n5]
    cases e with
    | false => simp [shape]
    | true =>
      simp only [if_true, true_and, hprev, shape]
      by_cases hz : s.tmp.data.length = 0
      · rw [if_pos hz, if_neg (fun h => h hz)]
      · rw [if_neg hz, if_pos hz]
  · rw [h2.cur]; exact w3.trans hcur
  · rw [h2.tmp, hdata, hn.1, hn.2.1, hn.2.2.1, hn.2.2.2]

/-! ## Sequences of units -/

/-- Feeding the units `l` in state `s` goes well, ends in `s'` and hands on the frames `a`. -/
def Yields (s : State) (l : List Nal) (s' : State) (a : List Au) : Prop :=
  ∃ outs, runOps manageFrame s l = .ok (s', outs) ∧ outs.filterMap id = a

theorem Yields.nil (s : State) : Yields s [] s [] := ⟨[], rfl, rfl⟩

theorem Yields.cons {s s1 s2 : State} {n : Nal} {l : List Nal} {o : Option Au} {a : List Au}
    (h : manageFrame s n = .ok (s1, o)) (h2 : Yields s1 l s2 a) : Yields s (n :: l) s2 (o.toList ++ a) := by
  obtain ⟨outs, h3, h4⟩ := h2
  refine ⟨o :: outs, ?_, ?_⟩
  · simp only [runOps, h, Outcome.bind_ok, h3]
  · cases o <;> simp [h4]

theorem Yields.append {s s1 s2 : State} {l l' : List Nal} {a b : List Au} (h : Yields s l s1 a) (h2 : Yields s1 l' s2 b) :
    Yields s (l ++ l') s2 (a ++ b) := by
  obtain ⟨o1, h3, h4⟩ := h
  obtain ⟨o2, h5, h6⟩ := h2
  refine ⟨o1 ++ o2, ?_, ?_⟩
  · simp only [runOps_append, h3, Outcome.bind_ok, h5]
  · rw [List.filterMap_append, h4, h6]

/-- What precedes the slices. -/
def PreOk (c : Codec) (p : Picture) (n : Nal) : Prop :=
  Whole n ∧ kindOf c n ∈ [Kind.aud, .vps, .sps, .pps, .sei] ∧
    frameTime n.pts n.dts = frameTime p.pts p.dts ∧ (kindOf c n = .sps → 3 ≤ (payload n).length)

def SliceOk (c : Codec) (p : Picture) (n : Nal) : Prop :=
  Whole n ∧ kindOf c n = (if p.key then .key else .slice) ∧ n.pts = p.pts ∧ n.dts = p.dts ∧
    n.width = p.width ∧ n.height = p.height

theorem pre_run {c : Codec} {m : Nat} {p : Picture} : ∀ (l : List Nal) (s : State), Inv c m s → s.tmp.data = [] →
    (∀ n ∈ l, PreOk c p n) → ∃ s', Yields s l s' [] ∧ Inv c m s' ∧ s'.tmp.data = []
  | [], s, hi, he, _ => ⟨s, .nil s, hi, he⟩
  | n :: l, s, hi, he, h => by
    obtain ⟨h1, h2, h3, h4⟩ := h n (by simp)
    obtain ⟨s1, e1, e2, e3⟩ := pre_on_empty hi he h1 h2 h4
    obtain ⟨s2, f1, f2, f3⟩ := pre_run l s1 e2 e3 (fun x hx => h x (by simp [hx]))
    exact ⟨s2, .cons e1 f1, f2, f3⟩

theorem sample_cons (u : Bytes) (us : List Bytes) : sample (u :: us) = be32 u.length ++ u ++ sample us := by simp [sample]

theorem sample_app (us vs : List Bytes) : sample (us ++ vs) = sample us ++ sample vs := by simp [sample]

theorem slices_run {c : Codec} {m : Nat} {p : Picture} (hm : m < 2 ^ 31) : ∀ (l : List Nal) (s : State) (us : List Bytes),
    Full c m s p us → (∀ n ∈ l, SliceOk c p n) → (sample (us ++ l.map payload)).length ≤ m →
    ∃ s', Yields s l s' [] ∧ Full c m s' p (us ++ l.map payload)
  | [], s, us, hf, _, _ => ⟨s, .nil s, by rw [List.map_nil, List.append_nil]; exact hf⟩
  | n :: l, s, us, hf, h, hfit => by
    obtain ⟨h1, h2, h3, h4, h5, h6⟩ := h n (by simp)
    obtain ⟨k1, k2, k3, k4⟩ := not_pre_slice h2
    have hd : s.tmp.data = sample us := by rw [hf.tmp]
    have htime : s.tmp.time = frameTime p.pts p.dts := by rw [hf.tmp]; rfl
    have hassoc : us ++ (n :: l).map payload = (us ++ [payload n]) ++ l.map payload := by simp
    rw [hassoc] at hfit ⊢
    have hlen : (sample us).length + 4 + (payload n).length ≤ m := by
      have := hfit
      rw [sample_app, sample_append] at this
      simp only [List.length_append, be32_length] at this
      omega
    obtain ⟨s1, e1, e2, e3, e4⟩ := slice_step (e := false) hf.inv h1 h2 ⟨h3, h4, h5, h6⟩ (by
      intro s0 _ ht
      unfold ends
      have h7 : (kindOf c n == Kind.aud) = false := by simpa using k3
      have h8 : ¬ s0.tmp.time < frameTime n.pts n.dts := by rw [ht, htime, h3, h4]; omega
      rw [h7, decide_eq_false h8]; rfl) hm (by rw [hd]; exact hlen)
    have hf1 : Full c m s1 p (us ++ [payload n]) := by
      refine ⟨e2, ?_, e3, by simp⟩
      rw [e4, sample_append, hd]; rfl
    obtain ⟨s2, f1, f2⟩ := slices_run hm l s1 _ hf1 (fun x hx => h x (by simp [hx])) hfit
    refine ⟨s2, ?_, f2⟩
    have e1' : manageFrame s n = .ok (s1, none) := by rw [e1]; simp
    exact .cons e1' f1

/-- The slices of a picture met with nothing under assembly. -/
theorem first_slices {c : Codec} {m : Nat} {p : Picture} {s : State} (hm : m < 2 ^ 31) (hi : Inv c m s)
    (he : s.tmp.data = []) (hs : ∀ n ∈ p.slices, SliceOk c p n) (hne : p.slices ≠ [])
    (hfit : (sample (p.slices.map payload)).length ≤ m) :
    ∃ s', Yields s p.slices s' [] ∧ Full c m s' p (p.slices.map payload) := by
  obtain ⟨n, l, hl⟩ : ∃ n l, p.slices = n :: l := by
    cases h : p.slices with
    | nil => exact absurd h hne
    | cons n l => exact ⟨n, l, rfl⟩
  rw [hl] at hs hfit ⊢
  obtain ⟨h1, h2, h3, h4, h5, h6⟩ := hs n (by simp)
  have hlen : 4 + (payload n).length ≤ m := by
    have := hfit
    rw [List.map_cons, sample_cons] at this
    simp only [List.length_append, be32_length] at this
    omega
  obtain ⟨s1, e1, e2, e3, e4⟩ := slice_step (e := ends s (kindOf c n) n) hi h1 h2 ⟨h3, h4, h5, h6⟩ (by
    intro s0 hc ht
    unfold ends
    rw [ht, hc, hi.codec]) hm (by rw [he]; cases ends s (kindOf c n) n <;> simpa using hlen)
  have hf1 : Full c m s1 p [payload n] := by
    refine ⟨e2, ?_, e3, by simp⟩
    rw [e4, he]
    cases ends s (kindOf c n) n <;> simp [sample]
  obtain ⟨s2, f1, f2⟩ := slices_run hm l s1 _ hf1 (fun x hx => hs x (by simp [hx])) (by simpa using hfit)
  refine ⟨s2, ?_, by simpa using f2⟩
  have e1' : manageFrame s n = .ok (s1, none) := by rw [e1, he]; simp
  exact .cons e1' f1

/-- A picture met with nothing under assembly. -/
theorem first_picture {c : Codec} {m : Nat} {p : Picture} {s : State} (hm : m < 2 ^ 31) (hi : Inv c m s)
    (he : s.tmp.data = []) (hp : p.Ok c) (hfit : p.au.data.length ≤ m) :
    ∃ s', Yields s p.nals s' [] ∧ Full c m s' p (p.slices.map payload) := by
  obtain ⟨s1, a1, a2, a3⟩ := pre_run p.pre s hi he hp.pre
  obtain ⟨s2, b1, b2⟩ := first_slices hm a2 a3 hp.slices hp.some hfit
  exact ⟨s2, a1.append b1, b2⟩

/-- A picture met with the previous one complete but not handed on. -/
theorem next_picture {c : Codec} {m : Nat} {p q : Picture} {s : State} (hm : m < 2 ^ 31)
    (hf : Full c m s p (p.slices.map payload)) (hsep : Separated c p q) (hq : q.Ok c) (hfit : q.au.data.length ≤ m) :
    ∃ s', Yields s q.nals s' [p.au] ∧ Full c m s' q (q.slices.map payload) := by
  cases hpre : q.pre with
  | cons n l =>
    obtain ⟨h1, h2, h3, h4⟩ := hq.pre n (by rw [hpre]; simp)
    have hs : kindOf c n = .aud ∨ frameTime p.pts p.dts < frameTime n.pts n.dts := by
      rcases hsep with ⟨n', l', e1, e2⟩ | h
      · unfold Picture.nals at e1
        rw [hpre] at e1
        obtain ⟨rfl, _⟩ := List.cons.inj e1
        exact .inl e2
      · rw [h3]; exact .inr h
    obtain ⟨s1, e1, e2, e3⟩ := pre_on_full hf h1 h2 h4 hs
    obtain ⟨s2, a1, a2, a3⟩ := pre_run (p := q) l s1 e2 e3 (fun x hx => hq.pre x (by rw [hpre]; simp [hx]))
    obtain ⟨s3, b1, b2⟩ := first_slices hm a2 a3 hq.slices hq.some hfit
    refine ⟨s3, ?_, b2⟩
    unfold Picture.nals
    rw [hpre]
    exact (Yields.cons e1 a1).append b1
  | nil =>
    obtain ⟨n, l, hl⟩ : ∃ n l, q.slices = n :: l := by
      cases h : q.slices with
      | nil => exact absurd h hq.some
      | cons n l => exact ⟨n, l, rfl⟩
    have hnals : q.nals = n :: l := by unfold Picture.nals; rw [hpre, hl]; rfl
    obtain ⟨h1, h2, h3, h4, h5, h6⟩ := hq.slices n (by rw [hl]; simp)
    obtain ⟨k1, k2, k3, k4⟩ := not_pre_slice h2
    have hs : frameTime p.pts p.dts < frameTime n.pts n.dts := by
      rcases hsep with ⟨n', l', e1, e2⟩ | h
      · rw [hnals] at e1
        obtain ⟨rfl, _⟩ := List.cons.inj e1
        exact absurd e2 k3
      · rw [h3, h4]; exact h
    have hd : s.tmp.data = sample (p.slices.map payload) := by rw [hf.tmp]
    have htime : s.tmp.time = frameTime p.pts p.dts := by rw [hf.tmp]; rfl
    have hpos := sample_ne hf.ne
    have hfit' : (sample ((n :: l).map payload)).length ≤ m := by rw [← hl]; exact hfit
    have hlen : 4 + (payload n).length ≤ m := by
      have := hfit'
      rw [List.map_cons, sample_cons] at this
      simp only [List.length_append, be32_length] at this
      omega
    obtain ⟨s1, e1, e2, e3, e4⟩ := slice_step (e := true) hf.inv h1 h2 ⟨h3, h4, h5, h6⟩ (by
      intro s0 hc ht
      exact ends_full hc (by rw [ht, hd]; exact hpos) (.inr (by rw [ht, htime]; exact hs))) hm (by simpa using hlen)
    have hf1 : Full c m s1 q [payload n] := ⟨e2, by rw [e4]; simp [sample], e3, by simp⟩
    obtain ⟨s2, f1, f2⟩ := slices_run hm l s1 _ hf1 (fun x hx => hq.slices x (by rw [hl]; simp [hx])) (by simpa using hfit')
    rw [hnals, hl]
    refine ⟨s2, ?_, by simpa using f2⟩
    have e1' : manageFrame s n = .ok (s1, some p.au) := by
      rw [e1, if_pos ⟨rfl, by rw [hd]; omega⟩, hf.tmp, hf.cur]; rfl
    exact .cons e1' f1

theorem later_pictures {c : Codec} {m : Nat} (hm : m < 2 ^ 31) : ∀ (l : List Picture) (p : Picture) (s : State),
    Full c m s p (p.slices.map payload) → Chain c (p :: l) → (∀ q ∈ l, q.Ok c ∧ q.au.data.length ≤ m) →
    ∃ s', Yields s (l.flatMap Picture.nals) s' ((p :: l).dropLast.map Picture.au)
  | [], p, s, _, _, _ => ⟨s, .nil s⟩
  | q :: l, p, s, hf, hc, h => by
    obtain ⟨h1, h2⟩ := h q (by simp)
    obtain ⟨s1, a1, a2⟩ := next_picture hm hf hc.1 h1 h2
    obtain ⟨s2, b1⟩ := later_pictures hm l q s1 a2 hc.2 (fun x hx => h x (by simp [hx]))
    exact ⟨s2, a1.append b1⟩

/-- **C52.**  Feed the units of any sequence of pictures -- each: delimiters, parameter sets and SEI, then slices; each
told from the one before by a delimiter or a later time; each within the frame limit -- to a segmenter with nothing
under assembly.  It hands on exactly one frame for every picture but the last, in order; a frame is the picture's slices
with their lengths, has the picture's time and size and is marked intra exactly if the picture's slices are. -/
theorem pictures_are_assembled (c : Codec) (m : Nat) (hm : m < 2 ^ 31) (s : State) (hs : Inv c m s) (he : s.tmp.data = [])
    (l : List Picture) (hc : Chain c l) (hl : ∀ p ∈ l, p.Ok c ∧ p.au.data.length ≤ m) :
    ∃ s' outs, runOps manageFrame s (l.flatMap Picture.nals) = .ok (s', outs) ∧
      outs.filterMap id = l.dropLast.map Picture.au := by
  cases l with
  | nil => exact ⟨s, [], rfl, rfl⟩
  | cons p l =>
    obtain ⟨h1, h2⟩ := hl p (by simp)
    obtain ⟨s1, a1, a2⟩ := first_picture hm hs he h1 h2
    obtain ⟨s2, b1⟩ := later_pictures hm l p s1 a2 hc (fun x hx => hl x (by simp [hx]))
    exact ⟨s2, a1.append b1⟩

/-- A unit of any other kind is ignored (it only remembers the current intra mark). -/
theorem other_units_ignored (s : State) (n : Nal) (hw : Whole n) (hk : kindOf s.codec n = .other) (hs : SpsOk s) :
    ∃ s', manageFrame s n = .ok (s', none) ∧ s'.tmp = s.tmp ∧ s'.cur = s.cur := by
  obtain ⟨off, h1, h2, h3, h4⟩ := strip_drop hw
  obtain ⟨b, r, hbr⟩ : ∃ b r, n.buf.drop off = b :: r := by
    cases hh : n.buf.drop off with
    | nil => rw [hh] at h3; simp at h3; exact absurd h3 hw.2.2.2
    | cons b r => exact ⟨b, r, rfl⟩
  have hkind : kindOf s.codec n = kind s.codec b := by
    have : payload n = b :: r.take (n.len - off - 1) := by
      rw [h3, hbr]
      obtain ⟨m, hm⟩ : ∃ m, n.len - off = m + 1 := ⟨n.len - off - 1, by omega⟩
      rw [hm]; simp
    simp only [kindOf, this]
  have hp : parseNal s n = .ok ({ s with prev := s.cur }, none) := by
    simp only [parseNal, h1, Outcome.bind_ok]
    rw [if_neg (by rintro (e | ⟨_, e⟩) <;> omega), hbr]
    simp only [← hkind, hk, if_true]
  obtain ⟨s2, g1, g2, g3⟩ := manage_of_parse hp hs
  exact ⟨s2, g1, g2.tmp, g2.cur⟩

/-! ## Examples and exceptions -/

def nalOf (pts : Int) (body : Bytes) : Nal := ⟨[0, 0, 0, 1] ++ body, 4 + body.length, pts, -1, 1920, 1080⟩

def start (c : Codec) : State := ⟨c, 1000, ⟨[], 0, -1, 0, 0⟩, ⟨[], 0, -1, 0, 0⟩, false, false, [], [], [], []⟩

def emitted (s : State) (l : List Nal) : List (List Bytes × Int × Bool) :=
  match runOps manageFrame s l with
  | .ok (_, outs) => (outs.filterMap id).map fun a => ((units a.data).getD [], a.pts, a.intra)
  | _ => []

def pic1 : Picture :=
  ⟨[nalOf 10 [9, 0xF0], nalOf 10 [0x67, 100, 0, 31], nalOf 10 [0x68, 1]], [nalOf 10 [0x65, 1, 2], nalOf 10 [0x65, 3]],
    10, -1, 1920, 1080, true⟩
def pic2 : Picture := ⟨[], [nalOf 20 [0x41, 4]], 20, -1, 1920, 1080, false⟩
def pic3 : Picture := ⟨[nalOf 20 [9, 0x10]], [nalOf 20 [0x41, 5]], 20, -1, 1920, 1080, false⟩

/-- Three pictures, the last told from the second by a delimiter only. -/
example : Inv .avc 1000 (start .avc) ∧ (start .avc).tmp.data = [] ∧ Chain .avc [pic1, pic2, pic3] ∧
    (∀ p ∈ [pic1, pic2, pic3], p.Ok .avc ∧ p.au.data.length ≤ 1000) := by
  refine ⟨⟨rfl, rfl, .inl rfl⟩, rfl, ⟨.inr (by decide +kernel), .inl ⟨_, _, rfl, by decide +kernel⟩, trivial⟩, ?_⟩
  intro p hp
  simp only [List.mem_cons, List.mem_nil_iff, or_false] at hp
  rcases hp with rfl | rfl | rfl
  all_goals
    refine ⟨⟨?_, ?_, by decide +kernel⟩, by decide +kernel⟩
    · unfold Whole; decide +kernel
    · unfold Whole; decide +kernel

example : emitted (start .avc) ([pic1, pic2, pic3].flatMap Picture.nals) =
    [([[0x65, 1, 2], [0x65, 3]], 10, true), ([[0x41, 4]], 20, false)] := by decide +kernel

/-- Recorded exception: H.265 leading pictures (here RASL, type 8) are lost. -/
theorem leading_pictures_are_lost :
    emitted (start .hevc) [nalOf 10 [42, 1, 1], nalOf 20 [16, 1, 2], nalOf 30 [2, 1, 3], nalOf 40 [2, 1, 4]] =
      [([[42, 1, 1]], 10, true), ([[2, 1, 3]], 30, false)] ∧ stdKind .hevc 16 = .slice := by
  decide +kernel

/-- Recorded exception: an SEI unit after the slices of an intra picture makes its frame non-intra. -/
theorem trailing_sei_loses_intra :
    emitted (start .avc) [nalOf 10 [0x65, 1], nalOf 10 [6, 7], nalOf 20 [0x41, 2]] = [([[0x65, 1]], 10, false)] := by
  decide +kernel

/-- Recorded exception: two pictures with the same time and no delimiter between them become one frame. -/
theorem same_time_pictures_merge :
    emitted (start .avc) [nalOf 10 [0x65, 1], nalOf 10 [0x41, 2], nalOf 20 [0x41, 3]] =
      [([[0x65, 1], [0x41, 2]], 10, false)] := by
  decide +kernel

/-- Recorded exception: pictures delivered out of time order (no delimiters) become one frame. -/
theorem reordered_pictures_merge :
    emitted (start .avc) [nalOf 30 [0x65, 1], nalOf 20 [0x41, 2], nalOf 40 [0x41, 3]] =
      [([[0x65, 1], [0x41, 2]], 20, false)] := by
  decide +kernel

/-- Recorded exception: with two picture parameter sets per intra picture, the record is made of the first, and the
second waits for the next sequence parameter set: the next record combines a new set with an old one. -/
theorem stale_parameter_set :
    (match runOps manageFrame (start .avc)
        [nalOf 10 [0x67, 1, 1, 1], nalOf 10 [0x68, 1], nalOf 10 [0x68, 2], nalOf 20 [0x67, 2, 2, 2]] with
      | .ok (s, _) => (readAvcC s.extra).map fun r => (r.sps, r.pps)
      | _ => none) = some ([[0x67, 2, 2, 2]], [[0x68, 2]]) := by
  decide +kernel

end Lms.Nalu
