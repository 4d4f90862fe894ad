import Verif.Model.Text
import Verif.Proofs.Digits

/-!
# Base64 and hex
-/

namespace Ristretto.Proofs
open Model
set_option autoImplicit false

theorem b64Digit_char : ∀ d : UInt8, d < 64 → b64Digit (b64Char d) = some d :=
  uint8_forall (by decide +kernel)

theorem d0_lt : ∀ a : UInt8, a >>> 2 < 64 := uint8_forall (by decide +kernel)
theorem d3_lt : ∀ a : UInt8, a &&& 63 < 64 := uint8_forall (by decide +kernel)
theorem shr4_lt : ∀ a : UInt8, a >>> 4 < 16 := uint8_forall (by decide +kernel)
theorem shr6_lt : ∀ a : UInt8, a >>> 6 < 4 := uint8_forall (by decide +kernel)
theorem and3_lt : ∀ a : UInt8, a &&& 3 < 4 := uint8_forall (by decide +kernel)
theorem and15_lt : ∀ a : UInt8, a &&& 15 < 16 := uint8_forall (by decide +kernel)

/-- A statement about all bytes below `n`. -/
theorem lt_forall {n : ℕ} (_hn : n ≤ 256) {P : UInt8 → Prop} (h : ∀ i : Fin n, P (UInt8.ofNat i)) :
    ∀ a : UInt8, a.toNat < n → P a := by
  intro a ha
  have := h ⟨a.toNat, ha⟩
  simpa using this

theorem lt_toNat {a b : UInt8} (h : a < b) : a.toNat < b.toNat := UInt8.lt_iff_toNat_lt.1 h

theorem d1_lt (x h : UInt8) (hx : x < 4) (hh : h < 16) : (x <<< 4) ||| h < 64 := by
  have := lt_forall (n := 4) (by norm_num)
    (P := fun x => ∀ h : UInt8, h.toNat < 16 → (x <<< 4) ||| h < 64)
    (fun i => lt_forall (by norm_num) (by revert i; decide +kernel)) x (lt_toNat hx) h (lt_toNat hh)
  exact this

theorem d2_lt (x h : UInt8) (hx : x < 16) (hh : h < 4) : (x <<< 2) ||| h < 64 := by
  have := lt_forall (n := 16) (by norm_num)
    (P := fun x => ∀ h : UInt8, h.toNat < 4 → (x <<< 2) ||| h < 64)
    (fun i => lt_forall (by norm_num) (by revert i; decide +kernel)) x (lt_toNat hx) h (lt_toNat hh)
  exact this

theorem byte0 (a h : UInt8) (hh : h < 16) : ((a >>> 2) <<< 2) ||| ((((a &&& 3) <<< 4) ||| h) >>> 4) = a := by
  have := lt_forall (n := 16) (by norm_num)
    (P := fun h => ∀ a : UInt8, ((a >>> 2) <<< 2) ||| ((((a &&& 3) <<< 4) ||| h) >>> 4) = a)
    (fun i => uint8_forall (by revert i; decide +kernel)) h (lt_toNat hh) a
  exact this

theorem byte1 (x b h : UInt8) (hx : x < 4) (hh : h < 4) :
    (((x <<< 4) ||| (b >>> 4)) <<< 4) ||| ((((b &&& 15) <<< 2) ||| h) >>> 2) = b := by
  have := lt_forall (n := 4) (by norm_num)
    (P := fun x => ∀ h : UInt8, h.toNat < 4 → ∀ b : UInt8,
      (((x <<< 4) ||| (b >>> 4)) <<< 4) ||| ((((b &&& 15) <<< 2) ||| h) >>> 2) = b)
    (fun i => lt_forall (by norm_num) (fun j => uint8_forall (by revert i j; decide +kernel)))
    x (lt_toNat hx) h (lt_toNat hh) b
  exact this

theorem byte2 (y c : UInt8) (hy : y < 16) : (((y <<< 2) ||| (c >>> 6)) <<< 6) ||| (c &&& 63) = c := by
  have := lt_forall (n := 16) (by norm_num)
    (P := fun y => ∀ c : UInt8, (((y <<< 2) ||| (c >>> 6)) <<< 6) ||| (c &&& 63) = c)
    (fun i => uint8_forall (by revert i; decide +kernel)) y (lt_toNat hy) c
  exact this

theorem or_zero8 (x : UInt8) : x ||| 0 = x := by simp

/-- What `Decode` does with the characters that are not line breaks. -/
def b64Plain (cap : ℕ) : List UInt8 → List UInt8 → Res (List UInt8)
  | [], out => .ok out
  | [_], _ => .err
  | [a, b], out =>
    match b64Digit a, b64Digit b with
    | some x, some y =>
      if out.length + 1 > cap then .panic else .ok (out ++ quantumBytes [x, y])
    | _, _ => .err
  | [a, b, c], out =>
    match b64Digit a, b64Digit b, b64Digit c with
    | some x, some y, some z =>
      if out.length + 2 > cap then .panic else .ok (out ++ quantumBytes [x, y, z])
    | _, _, _ => .err
  | a :: b :: c :: d :: rest, out =>
    match b64Digit a, b64Digit b, b64Digit c, b64Digit d with
    | some x, some y, some z, some w =>
      if out.length + 3 > cap then .panic else b64Plain cap rest (out ++ quantumBytes [x, y, z, w])
    | _, _, _, _ => .err

/-- A line break. -/
def isBreak (c : UInt8) : Bool := c == 10 || c == 13

/-- The text without line breaks. -/
def noBreaks (src : List UInt8) : List UInt8 := src.filter fun c => !isBreak c

theorem break_not_digit {c : UInt8} (h : isBreak c = true) : b64Digit c = none := by
  simp only [isBreak, Bool.or_eq_true, beq_iff_eq] at h
  rcases h with rfl | rfl <;> rfl

/-- `readQuantum` sees the text without line breaks. -/
theorem readQuantum_spec : ∀ (src : List UInt8) (n : ℕ) (acc : List UInt8),
    (readQuantum src n acc = none ∧
      ((∃ k, k < n ∧ ∃ c, (noBreaks src)[k]? = some c ∧ b64Digit c = none ) ∨
       ((noBreaks src).length < n ∧ acc.length + (noBreaks src).length = 1))) ∨
    (∃ q rest, readQuantum src n acc = some (acc ++ q, rest) ∧
      ((noBreaks src).take n).map b64Digit = q.map some ∧
      noBreaks rest = (noBreaks src).drop n ∧ rest.length + q.length ≤ src.length ∧
      ((noBreaks src).length < n → rest = [] ∧ acc.length + q.length ≠ 1)) := by
  intro src
  induction src with
  | nil =>
    intro n acc
    cases n with
    | zero => right; exact ⟨[], [], by simp [readQuantum], by simp [noBreaks], by simp [noBreaks], by simp, by simp⟩
    | succ n =>
      simp only [readQuantum]
      by_cases h : acc.length = 1
      · left; rw [if_pos h]; exact ⟨rfl, Or.inr ⟨by simp [noBreaks], by simp [noBreaks, h]⟩⟩
      · right; rw [if_neg h]
        exact ⟨[], [], by simp, by simp [noBreaks], by simp [noBreaks], by simp, fun _ => ⟨rfl, by simpa using h⟩⟩
  | cons c cs ih =>
    intro n acc
    cases n with
    | zero =>
      right
      exact ⟨[], c :: cs, by simp [readQuantum], by simp, by simp, by simp, fun h => by simp at h⟩
    | succ n =>
      simp only [readQuantum]
      cases hd : b64Digit c with
      | some x =>
        have hb : isBreak c = false := by
          cases hb : isBreak c with
          | false => rfl
          | true => rw [break_not_digit hb] at hd; simp at hd
        have hn : noBreaks (c :: cs) = c :: noBreaks cs := by simp [noBreaks, hb]
        rcases ih n (acc ++ [x]) with ⟨h1, h2⟩ | ⟨q, rest, h1, h2, h3, h4, h5⟩
        · left
          refine ⟨h1, ?_⟩
          rcases h2 with ⟨k, hk, c', hc, hc'⟩ | ⟨h2, h3⟩
          · left; exact ⟨k + 1, by omega, c', by rw [hn]; simpa using hc, hc'⟩
          · right; rw [hn]; simp only [List.length_cons, List.length_append, List.length_nil] at *; omega
        · right
          refine ⟨x :: q, rest, by simp [h1], by rw [hn]; simp [h2, hd], by rw [hn]; simpa using h3,
            by simp; omega, ?_⟩
          intro hlt
          rw [hn] at hlt
          obtain ⟨e1, e2⟩ := h5 (by simpa using hlt)
          refine ⟨e1, ?_⟩
          simp only [List.length_append, List.length_cons, List.length_nil] at *; omega
      | none =>
        by_cases hb : isBreak c = true
        · have hn : noBreaks (c :: cs) = noBreaks cs := by simp [noBreaks, hb]
          have hc : c = 10 ∨ c = 13 := by simpa [isBreak] using hb
          simp only [if_pos hc]
          rcases ih (n + 1) acc with h | ⟨q, rest, h1, h2, h3, h4, h5⟩
          · left; rw [hn]; exact h
          · right; rw [hn]; exact ⟨q, rest, h1, h2, h3, by simp; omega, h5⟩
        · have hb' : isBreak c = false := by simpa using hb
          have hn : noBreaks (c :: cs) = c :: noBreaks cs := by simp [noBreaks, hb']
          have hc : ¬ (c = 10 ∨ c = 13) := by simpa [isBreak] using hb
          simp only [if_neg hc]
          left
          exact ⟨trivial, Or.inl ⟨0, by omega, c, by rw [hn]; rfl, hd⟩⟩

theorem quantumBytes_length {q : List UInt8} (h : q.length ≤ 4) : (quantumBytes q).length = q.length - 1 := by
  match q, h with
  | [], _ => rfl
  | [_], _ => rfl
  | [_, _], _ => rfl
  | [_, _, _], _ => rfl
  | [_, _, _, _], _ => rfl
  | _ :: _ :: _ :: _ :: _ :: _, h => simp only [List.length_cons] at h; omega

theorem digits_none {l : List UInt8} {k n : ℕ} (hk : k < n) {c : UInt8} (hc : l[k]? = some c)
    (hd : b64Digit c = none) : ∀ q : List UInt8, (l.take n).map b64Digit ≠ q.map some := by
  intro q h
  have h1 : ((l.take n).map b64Digit)[k]? = some none := by
    rw [List.getElem?_map, List.getElem?_take_of_lt hk, hc]; simp [hd]
  rw [h, List.getElem?_map] at h1
  cases h2 : q[k]? <;> simp [h2] at h1

/-- `Decode` skips line breaks and treats the rest four characters at a time. -/
theorem b64DecodeLoop_spec (cap : ℕ) : ∀ (fuel : ℕ) (src out : List UInt8), src.length ≤ fuel →
    b64DecodeLoop cap fuel src out = b64Plain cap (noBreaks src) out ∨
    (cap < out.length) := by
  intro fuel
  induction fuel with
  | zero =>
    intro src out h
    have : src = [] := by simpa using h
    subst this
    left; simp [b64DecodeLoop, noBreaks, b64Plain]
  | succ fuel ih =>
    intro src out h
    by_cases hcap : cap < out.length
    · right; exact hcap
    left
    match src, h with
    | [], _ => simp [b64DecodeLoop, noBreaks, b64Plain]
    | c :: cs, h =>
      rw [b64DecodeLoop]
      have hs := readQuantum_spec (c :: cs) 4 []
      generalize c :: cs = src at *
      rcases hs with ⟨h1, h2⟩ | ⟨q, rest, h1, h2, h3, h4, h5⟩
      · rw [h1]
        simp only
        rcases h2 with ⟨k, hk, c', hc, hd⟩ | ⟨_, h2⟩
        · have hne := digits_none hk hc hd
          generalize hl : noBreaks src = l at *
          match l with
          | [] => simp at hc
          | [a] => rfl
          | [a, b] =>
            simp only [b64Plain]
            cases ha : b64Digit a <;> cases hb : b64Digit b <;> try rfl
            rename_i x y
            exact absurd (by simp [ha, hb]) (hne [x, y])
          | [a, b, c] =>
            simp only [b64Plain]
            cases ha : b64Digit a <;> cases hb : b64Digit b <;> cases hcc : b64Digit c <;> try rfl
            rename_i x y z
            exact absurd (by simp [ha, hb, hcc]) (hne [x, y, z])
          | a :: b :: c :: d :: l =>
            rw [b64Plain]
            cases ha : b64Digit a <;> cases hb : b64Digit b <;> cases hcc : b64Digit c <;>
              cases hdd : b64Digit d <;> try rfl
            rename_i x y z w
            exact absurd (by simp [ha, hb, hcc, hdd]) (hne [x, y, z, w])
        · simp only [List.length_nil, Nat.zero_add] at h2
          obtain ⟨a, ha⟩ := List.length_eq_one_iff.1 h2
          rw [ha]; rfl
      · rw [h1]
        simp only [List.nil_append]
        generalize hl : noBreaks src = l at *
        have key : ∀ out', cap < out'.length ∨ b64DecodeLoop cap fuel rest out' = b64Plain cap (l.drop 4) out' ∨ q = [] := by
          intro out'
          by_cases hq : q = []
          · right; right; exact hq
          have : 0 < q.length := List.length_pos_iff.2 hq
          rcases ih rest out' (by omega) with e | e
          · right; left; rw [e, h3]
          · left; exact e
        have hql : q.length ≤ 4 := by
          have := congrArg List.length h2
          simp only [List.length_map, List.length_take] at this; omega
        rw [quantumBytes_length hql]
        rcases l with _ | ⟨a, _ | ⟨b, _ | ⟨c, _ | ⟨d, l⟩⟩⟩⟩
        · have hq : q = [] := by simpa using h2.symm
          obtain ⟨hr, -⟩ := h5 (by simp)
          subst hr; subst hq
          simp only [quantumBytes, List.append_nil, b64Plain, List.length_nil]
          rw [if_neg (by omega)]
          cases fuel <;> rfl
        · exfalso
          have e1 := congrArg List.length h2
          have e2 := (h5 (by simp)).2
          simp at e1 e2; omega
        · obtain ⟨hr, -⟩ := h5 (by simp)
          subst hr
          rcases q with _ | ⟨x, _ | ⟨y, _ | ⟨z, q⟩⟩⟩ <;> simp at h2
          simp only [b64Plain, h2.1, h2.2, List.length_cons, List.length_nil]
          by_cases hc : out.length + 1 > cap
          · rw [if_pos (by omega), if_pos hc]
          · rw [if_neg (by omega), if_neg hc]; cases fuel <;> rfl
        · obtain ⟨hr, -⟩ := h5 (by simp)
          subst hr
          rcases q with _ | ⟨x, _ | ⟨y, _ | ⟨z, _ | ⟨w, q⟩⟩⟩⟩ <;> simp at h2
          simp only [b64Plain, h2.1, h2.2.1, h2.2.2, List.length_cons, List.length_nil]
          by_cases hc : out.length + 2 > cap
          · rw [if_pos (by omega), if_pos hc]
          · rw [if_neg (by omega), if_neg hc]; cases fuel <;> rfl
        · rcases q with _ | ⟨x, _ | ⟨y, _ | ⟨z, _ | ⟨w, _ | ⟨v, q⟩⟩⟩⟩⟩ <;> simp at h2
          rw [b64Plain]
          simp only [h2.1, h2.2.1, h2.2.2.1, h2.2.2.2, List.length_cons, List.length_nil]
          by_cases hc : out.length + 3 > cap
          · rw [if_pos (by omega), if_pos hc]
          · rw [if_neg (by omega), if_neg hc]
            rcases key (out ++ quantumBytes [x, y, z, w]) with e | e | e
            · simp [quantumBytes] at e; omega
            · simpa using e
            · simp at e

/-- `Decode` skips line breaks and treats the rest four characters at a time. -/
theorem b64Decode_spec (cap : ℕ) (src : List UInt8) :
    b64Decode cap src = b64Plain cap (noBreaks src) [] := by
  rcases b64DecodeLoop_spec cap src.length src [] le_rfl with h | h
  · exact h
  · simp at h

theorem char_not_break : ∀ d : UInt8, isBreak (b64Char d) = false := uint8_forall (by decide +kernel)

theorem encode_noBreaks : ∀ (n : ℕ) (l : List UInt8), l.length ≤ n → noBreaks (b64Encode l) = b64Encode l := by
  intro n
  induction n with
  | zero => intro l h; have : l = [] := by simpa using h
            subst this; rfl
  | succ n ih =>
    intro l h
    match l, h with
    | [], _ => rfl
    | [a], _ => simp [noBreaks, b64Encode, char_not_break]
    | [a, b], _ => simp [noBreaks, b64Encode, char_not_break]
    | a :: b :: c :: l, h =>
      have := ih l (by simp at h; omega)
      rw [b64Encode]
      unfold noBreaks at *
      simp [char_not_break] at this ⊢
      exact this

theorem encode_plain (cap : ℕ) : ∀ (n : ℕ) (l out : List UInt8), l.length ≤ n → out.length + l.length ≤ cap →
    b64Plain cap (b64Encode l) out = .ok (out ++ l) := by
  intro n
  induction n with
  | zero => intro l out h _; have : l = [] := by simpa using h
            subst this; simp [b64Encode, b64Plain]
  | succ n ih =>
    intro l out h hc
    match l, h, hc with
    | [], _, _ => simp [b64Encode, b64Plain]
    | [a], _, hc =>
      have h1 := d1_lt (a &&& 3) 0 (and3_lt a) (by decide)
      rw [or_zero8] at h1
      have h2 := byte0 a 0 (by decide)
      rw [or_zero8] at h2
      simp only [b64Encode, b64Plain, b64Digit_char _ (d0_lt a), b64Digit_char _ h1, quantumBytes, h2]
      rw [if_neg (by simp at hc; omega)]
    | [a, b], _, hc =>
      have h1 := d1_lt (a &&& 3) (b >>> 4) (and3_lt a) (shr4_lt b)
      have h3 := d2_lt (b &&& 15) 0 (and15_lt b) (by decide)
      rw [or_zero8] at h3
      have h2 := byte0 a (b >>> 4) (shr4_lt b)
      have h4 := byte1 (a &&& 3) b 0 (and3_lt a) (by decide)
      rw [or_zero8] at h4
      simp only [b64Encode, b64Plain, b64Digit_char _ (d0_lt a), b64Digit_char _ h1, b64Digit_char _ h3,
        quantumBytes, h2, h4]
      rw [if_neg (by simp at hc; omega)]
    | a :: b :: c :: l, h, hc =>
      have h1 := d1_lt (a &&& 3) (b >>> 4) (and3_lt a) (shr4_lt b)
      have h3 := d2_lt (b &&& 15) (c >>> 6) (and15_lt b) (shr6_lt c)
      have h2 := byte0 a (b >>> 4) (shr4_lt b)
      have h4 := byte1 (a &&& 3) b (c >>> 6) (and3_lt a) (shr6_lt c)
      have h5 := byte2 (b &&& 15) c (and15_lt b)
      rw [b64Encode, b64Plain]
      simp only [b64Digit_char _ (d0_lt a), b64Digit_char _ h1, b64Digit_char _ h3, b64Digit_char _ (d3_lt c),
        quantumBytes, h2, h4, h5]
      rw [if_neg (by simp at hc; omega), ih l _ (by simp at h; omega) (by simp at hc ⊢; omega)]
      simp

/-- Decoding what was encoded gives it back. -/
theorem b64_roundtrip {cap : ℕ} {l : List UInt8} (h : l.length ≤ cap) : b64Decode cap (b64Encode l) = .ok l := by
  rw [b64Decode_spec, encode_noBreaks _ l le_rfl, encode_plain cap _ l [] le_rfl (by simpa using h)]
  simp

theorem b64Encode_length : ∀ (n : ℕ) (l : List UInt8), l.length ≤ n →
    (b64Encode l).length = (l.length * 8 + 5) / 6 := by
  intro n
  induction n with
  | zero => intro l h; have : l = [] := by simpa using h
            subst this; rfl
  | succ n ih =>
    intro l h
    match l, h with
    | [], _ => rfl
    | [a], _ => simp [b64Encode]
    | [a, b], _ => simp [b64Encode]
    | a :: b :: c :: l, h =>
      have := ih l (by simp at h; omega)
      rw [b64Encode]
      simp only [List.length_cons, this]
      omega

theorem textToBuf_encode {l : List UInt8} (h : l.length = 32) : textToBuf (b64Encode l) = .ok l := by
  have := b64Encode_length _ l le_rfl
  rw [h] at this
  unfold textToBuf
  simp only [this, b64_roundtrip (show l.length ≤ 32 by omega), h]
  rfl

/-- `Decode` panics exactly when the buffer is too small for the characters that are there:
the first `4 * (cap / 3 + 1)` of them, for a buffer length that is not a multiple of three plus one. -/
theorem b64Plain_panic_iff (cap : ℕ) : ∀ (k : ℕ) (l out : List UInt8), out.length + 3 * k + 2 = cap →
    (b64Plain cap l out = .panic ↔
      4 * (k + 1) ≤ l.length ∧ ∀ c ∈ l.take (4 * (k + 1)), b64Digit c ≠ none) := by
  intro k
  induction k with
  | zero =>
    intro l out h
    match l with
    | [] => simp [b64Plain]
    | [a] => simp [b64Plain]
    | [a, b] =>
      simp only [b64Plain]
      cases ha : b64Digit a <;> cases hb : b64Digit b <;> simp <;> omega
    | [a, b, c] =>
      simp only [b64Plain]
      cases ha : b64Digit a <;> cases hb : b64Digit b <;> cases hc : b64Digit c <;> simp <;> omega
    | a :: b :: c :: d :: l =>
      rw [b64Plain]
      cases ha : b64Digit a <;> cases hb : b64Digit b <;> cases hc : b64Digit c <;> cases hd : b64Digit d <;>
        simp [ha, hb, hc, hd]
      omega
  | succ k ih =>
    intro l out h
    match l with
    | [] => simp [b64Plain]
    | [a] => simp [b64Plain]; omega
    | [a, b] =>
      simp only [b64Plain]
      cases ha : b64Digit a <;> cases hb : b64Digit b <;> simp <;> omega
    | [a, b, c] =>
      simp only [b64Plain]
      cases ha : b64Digit a <;> cases hb : b64Digit b <;> cases hc : b64Digit c <;> simp <;> omega
    | a :: b :: c :: d :: l =>
      rw [b64Plain, show 4 * (k + 1 + 1) = 4 * (k + 1) + 4 by ring]
      cases ha : b64Digit a <;> cases hb : b64Digit b <;> cases hc : b64Digit c <;> cases hd : b64Digit d <;>
        simp only [List.take_succ_cons, List.mem_cons, List.length_cons]
      all_goals try
        (refine ⟨fun h => by simp at h, fun h => ?_⟩
         have h1 := h.2 a (Or.inl rfl)
         have h2 := h.2 b (Or.inr (Or.inl rfl))
         have h3 := h.2 c (Or.inr (Or.inr (Or.inl rfl)))
         have h4 := h.2 d (Or.inr (Or.inr (Or.inr (Or.inl rfl))))
         simp only [ha, hb, hc, hd] at h1 h2 h3 h4
         contradiction)
      rename_i x y z w
      rw [if_neg (by omega), ih l _ (by simp [quantumBytes]; omega)]
      constructor
      · rintro ⟨h1, h2⟩
        refine ⟨by omega, ?_⟩
        rintro e (rfl | rfl | rfl | rfl | he)
        · simp [ha]
        · simp [hb]
        · simp [hc]
        · simp [hd]
        · exact h2 e he
      · rintro ⟨h1, h2⟩
        exact ⟨by omega, fun e he => h2 e (Or.inr (Or.inr (Or.inr (Or.inr he))))⟩

/-- Decoding into 32 bytes panics exactly when there are 44 characters, not counting line breaks,
and the first 44 of them are in the alphabet. -/
theorem b64Decode_panic_iff (src : List UInt8) :
    b64Decode 32 src = .panic ↔
      44 ≤ (noBreaks src).length ∧ ∀ c ∈ (noBreaks src).take 44, b64Digit c ≠ none := by
  rw [b64Decode_spec]
  exact b64Plain_panic_iff 32 10 _ [] (by simp)

theorem b64Plain_length {cap : ℕ} : ∀ (n : ℕ) (l out r : List UInt8), l.length ≤ n →
    b64Plain cap l out = .ok r → r.length ≤ cap ∨ r = out := by
  intro n
  induction n with
  | zero =>
    intro l out r h e
    have : l = [] := by simpa using h
    subst this
    simp only [b64Plain, Res.ok.injEq] at e
    exact Or.inr e.symm
  | succ n ih =>
    intro l out r h e
    match l, h, e with
    | [], _, e => simp only [b64Plain, Res.ok.injEq] at e; exact Or.inr e.symm
    | [a], _, e => simp [b64Plain] at e
    | [a, b], _, e =>
      simp only [b64Plain] at e
      split at e
      · split at e
        · simp at e
        · simp only [Res.ok.injEq] at e; subst e; left; simp [quantumBytes]; omega
      · simp at e
    | [a, b, c], _, e =>
      simp only [b64Plain] at e
      split at e
      · split at e
        · simp at e
        · simp only [Res.ok.injEq] at e; subst e; left; simp [quantumBytes]; omega
      · simp at e
    | a :: b :: c :: d :: l, h, e =>
      rw [b64Plain] at e
      split at e
      · split at e
        · simp at e
        · rcases ih l _ r (by simp at h; omega) e with h' | h'
          · exact Or.inl h'
          · subst h'; left; simp [quantumBytes]; omega
      · simp at e

end Ristretto.Proofs
