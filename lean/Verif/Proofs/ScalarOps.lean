import Verif.Proofs.ScalarAddSub
import Verif.Proofs.ScalarMul
import Verif.Proofs.FieldFlags
import Mathlib.FieldTheory.Finite.Basic

/-! # The remaining scalar functions -/

namespace Ristretto.Proofs
open Model Scalar
set_option autoImplicit false

/-! ## Bytes -/

theorem scVal_inj {s t : Scalar} (h : scVal s = scVal t) : s = t := by
  unfold scVal at h
  have s0 := s[0].toNat_lt
  have s1 := s[1].toNat_lt
  have s2 := s[2].toNat_lt
  have s3 := s[3].toNat_lt
  have s4 := s[4].toNat_lt
  have s5 := s[5].toNat_lt
  have s6 := s[6].toNat_lt
  have s7 := s[7].toNat_lt
  have t0 := t[0].toNat_lt
  have t1 := t[1].toNat_lt
  have t2 := t[2].toNat_lt
  have t3 := t[3].toNat_lt
  have t4 := t[4].toNat_lt
  have t5 := t[5].toNat_lt
  have t6 := t[6].toNat_lt
  have t7 := t[7].toNat_lt
  have e0 : s[0].toNat = t[0].toNat := by omega
  have e1 : s[1].toNat = t[1].toNat := by omega
  have e2 : s[2].toNat = t[2].toNat := by omega
  have e3 : s[3].toNat = t[3].toNat := by omega
  have e4 : s[4].toNat = t[4].toNat := by omega
  have e5 : s[5].toNat = t[5].toNat := by omega
  have e6 : s[6].toNat = t[6].toNat := by omega
  have e7 : s[7].toNat = t[7].toNat := by omega
  apply Vector.ext
  intro i hi
  interval_cases i
  · exact UInt32.toNat_inj.1 e0
  · exact UInt32.toNat_inj.1 e1
  · exact UInt32.toNat_inj.1 e2
  · exact UInt32.toNat_inj.1 e3
  · exact UInt32.toNat_inj.1 e4
  · exact UInt32.toNat_inj.1 e5
  · exact UInt32.toNat_inj.1 e6
  · exact UInt32.toNat_inj.1 e7

theorem u32_byte (x k : UInt32) (n : ℕ) (hk : k.toNat % 32 = n) : (x >>> k).toUInt8.toNat = x.toNat / 2 ^ n % 256 := by
  rw [UInt32.toNat_toUInt8, u32_shift x k n hk]

theorem u32_bytes (x : UInt32) : x.toNat = x.toUInt8.toNat + 2 ^ 8 * (x >>> 8).toUInt8.toNat +
    2 ^ 16 * (x >>> 16).toUInt8.toNat + 2 ^ 24 * (x >>> 24).toUInt8.toNat := by
  rw [UInt32.toNat_toUInt8, u32_byte x 8 8 rfl, u32_byte x 16 16 rfl, u32_byte x 24 24 rfl]
  have := x.toNat_lt
  omega

/-- `Bytes` is the little-endian encoding. -/
theorem bytes_val (s : Scalar) : leVal (Scalar.bytes s) = scVal s := by
  rw [leVal_32]
  unfold scVal
  rw [u32_bytes s[0], u32_bytes s[1], u32_bytes s[2], u32_bytes s[3], u32_bytes s[4], u32_bytes s[5],
    u32_bytes s[6], u32_bytes s[7]]
  show s[0].toUInt8.toNat + 2 ^ 8 * (s[0] >>> 8).toUInt8.toNat + 2 ^ 16 * (s[0] >>> 16).toUInt8.toNat + 2 ^ 24 * (s[0] >>> 24).toUInt8.toNat +
    2 ^ 32 * s[1].toUInt8.toNat + 2 ^ 40 * (s[1] >>> 8).toUInt8.toNat + 2 ^ 48 * (s[1] >>> 16).toUInt8.toNat + 2 ^ 56 * (s[1] >>> 24).toUInt8.toNat +
    2 ^ 64 * s[2].toUInt8.toNat + 2 ^ 72 * (s[2] >>> 8).toUInt8.toNat + 2 ^ 80 * (s[2] >>> 16).toUInt8.toNat + 2 ^ 88 * (s[2] >>> 24).toUInt8.toNat +
    2 ^ 96 * s[3].toUInt8.toNat + 2 ^ 104 * (s[3] >>> 8).toUInt8.toNat + 2 ^ 112 * (s[3] >>> 16).toUInt8.toNat + 2 ^ 120 * (s[3] >>> 24).toUInt8.toNat +
    2 ^ 128 * s[4].toUInt8.toNat + 2 ^ 136 * (s[4] >>> 8).toUInt8.toNat + 2 ^ 144 * (s[4] >>> 16).toUInt8.toNat + 2 ^ 152 * (s[4] >>> 24).toUInt8.toNat +
    2 ^ 160 * s[5].toUInt8.toNat + 2 ^ 168 * (s[5] >>> 8).toUInt8.toNat + 2 ^ 176 * (s[5] >>> 16).toUInt8.toNat + 2 ^ 184 * (s[5] >>> 24).toUInt8.toNat +
    2 ^ 192 * s[6].toUInt8.toNat + 2 ^ 200 * (s[6] >>> 8).toUInt8.toNat + 2 ^ 208 * (s[6] >>> 16).toUInt8.toNat + 2 ^ 216 * (s[6] >>> 24).toUInt8.toNat +
    2 ^ 224 * s[7].toUInt8.toNat + 2 ^ 232 * (s[7] >>> 8).toUInt8.toNat + 2 ^ 240 * (s[7] >>> 16).toUInt8.toNat + 2 ^ 248 * (s[7] >>> 24).toUInt8.toNat = _
  ring

theorem load4u32_val (a b c d : UInt8) : (load4u32 a b c d).toNat = a.toNat + 2 ^ 8 * b.toNat + 2 ^ 16 * c.toNat + 2 ^ 24 * d.toNat := by
  have ha := a.toNat_lt
  have hb := b.toNat_lt
  have hc := c.toNat_lt
  have hd := d.toNat_lt
  unfold load4u32
  have sh : ∀ (x : UInt8) (k : UInt32) (n : ℕ), k.toNat % 32 = n → n ≤ 24 → (x.toUInt32 <<< k).toNat = x.toNat * 2 ^ n := by
    intro x k n hk hn
    rw [UInt32.toNat_shiftLeft, hk, Nat.shiftLeft_eq, UInt8.toNat_toUInt32]
    apply Nat.mod_eq_of_lt
    have := x.toNat_lt
    calc x.toNat * 2 ^ n ≤ x.toNat * 2 ^ 24 := Nat.mul_le_mul_left _ (Nat.pow_le_pow_right (by norm_num) hn)
      _ < 2 ^ 32 := by omega
  rw [UInt32.toNat_or, UInt32.toNat_or, UInt32.toNat_or, sh b 8 8 rfl (by norm_num), sh c 16 16 rfl (by norm_num),
    sh d 24 24 rfl (by norm_num), UInt8.toNat_toUInt32, or_add_pow _ _ 8 ha, or_add_pow _ _ 16 (by omega),
    or_add_pow _ _ 24 (by omega)]
  ring

theorem words_val (x : Bytes 32) : scVal (words x) = leVal x := by
  rw [leVal_32]
  show (load4u32 x[0] x[1] x[2] x[3]).toNat + (load4u32 x[4] x[5] x[6] x[7]).toNat * 2 ^ 32 +
     (load4u32 x[8] x[9] x[10] x[11]).toNat * 2 ^ 64 + (load4u32 x[12] x[13] x[14] x[15]).toNat * 2 ^ 96 +
     (load4u32 x[16] x[17] x[18] x[19]).toNat * 2 ^ 128 + (load4u32 x[20] x[21] x[22] x[23]).toNat * 2 ^ 160 +
     (load4u32 x[24] x[25] x[26] x[27]).toNat * 2 ^ 192 + (load4u32 x[28] x[29] x[30] x[31]).toNat * 2 ^ 224 = _
  simp only [load4u32_val]
  ring

/-- `SetBytes` masks the top three bits and reduces. -/
theorem setBytes_val (x : Bytes 32) : scVal (Scalar.setBytes x) = leVal x % 2 ^ 253 % l := by
  have hw := words_val x
  unfold Scalar.setBytes
  simp only
  generalize words x = w at *
  have hm : (w[7] &&& 0x1fffffff).toNat = w[7].toNat % 2 ^ 29 := by
    rw [UInt32.toNat_and]; exact Nat.and_two_pow_sub_one_eq_mod _ 29
  have hv : scVal #v[w[0], w[1], w[2], w[3], w[4], w[5], w[6], w[7] &&& 0x1fffffff] = leVal x % 2 ^ 253 := by
    rw [← hw]
    show w[0].toNat + w[1].toNat * 2 ^ 32 + w[2].toNat * 2 ^ 64 + w[3].toNat * 2 ^ 96 +
      w[4].toNat * 2 ^ 128 + w[5].toNat * 2 ^ 160 + w[6].toNat * 2 ^ 192 + (w[7] &&& 0x1fffffff).toNat * 2 ^ 224 = _
    rw [hm]
    unfold scVal
    have s0 := w[0].toNat_lt
    have s1 := w[1].toNat_lt
    have s2 := w[2].toNat_lt
    have s3 := w[3].toNat_lt
    have s4 := w[4].toNat_lt
    have s5 := w[5].toNat_lt
    have s6 := w[6].toNat_lt
    have e : w[7].toNat = w[7].toNat % 2 ^ 29 + 2 ^ 29 * (w[7].toNat / 2 ^ 29) := by omega
    have hr : w[7].toNat % 2 ^ 29 < 2 ^ 29 := Nat.mod_lt _ (by norm_num)
    generalize w[7].toNat % 2 ^ 29 = r at *
    generalize w[7].toNat / 2 ^ 29 = q at *
    omega
  rw [sub_val, scVal_scL, hv]
  have hlt : leVal x % 2 ^ 253 < 2 ^ 253 := Nat.mod_lt _ (by norm_num)
  have hl := l_eq
  generalize leVal x % 2 ^ 253 = V at *
  split
  · rename_i h
    rw [Nat.mod_eq_of_lt h]
    generalize l = L at *
    omega
  · rename_i h
    rw [Nat.mod_eq_sub_mod (by omega), Nat.mod_eq_of_lt (by rw [hl] at *; omega)]

/-- `SetBytesStrict` accepts exactly the values below `l` and leaves the receiver alone otherwise. -/
theorem setBytesStrict_spec (s : Scalar) (x : Bytes 32) :
    (leVal x < l → (setBytesStrict s x).2 = true ∧ scVal (setBytesStrict s x).1 = leVal x) ∧
    (¬ leVal x < l → setBytesStrict s x = (s, false)) := by
  have hw := words_val x
  unfold setBytesStrict
  simp only
  have key : Scalar.sub (words x) scL = words x ↔ leVal x < l := by
    have hs := sub_val (words x) scL
    rw [scVal_scL, hw] at hs
    have hlt : leVal x < 2 ^ 256 := by have := scVal_lt (words x); rwa [hw] at this
    have hl := l_eq
    constructor
    · intro h
      rw [h, hw] at hs
      by_contra hc
      rw [if_neg hc] at hs
      generalize l = L at *
      omega
    · intro h
      rw [if_pos h] at hs
      apply scVal_inj
      rw [hs, hw]
      generalize l = L at *
      omega
  constructor
  · intro h
    rw [if_neg (by rw [ne_eq, key, not_not]; exact h)]
    exact ⟨rfl, hw⟩
  · intro h
    rw [if_pos (by rw [ne_eq, key]; exact h)]

theorem neg_red {a : Scalar} (ha : scVal a ≤ l) : (scVal (Scalar.neg a) : ℤ) = (-(scVal a : ℤ)) % l ∨ scVal a = l := by
  unfold Scalar.neg
  rcases Nat.lt_or_ge (scVal a) l with h | h
  · left
    have := sub_red_mod (a := scZero) (b := a) (by rw [scVal_scZero]; decide +kernel) h
    rw [this, scVal_scZero]; simp
  · right; omega

/-! ## Predicates -/

theorem u32_or_eq_zero (a b : UInt32) : a ||| b = 0 ↔ a = 0 ∧ b = 0 := by
  constructor
  · intro h
    have h' : a.toNat ||| b.toNat = 0 := by rw [← UInt32.toNat_or, h]; rfl
    rw [Nat.or_eq_zero_iff] at h'
    exact ⟨UInt32.toNat_inj.1 h'.1, UInt32.toNat_inj.1 h'.2⟩
  · rintro ⟨rfl, rfl⟩; rfl

theorem smear32 (n : ℕ) (hn : n < 2 ^ 32) :
    (let a := n ||| n >>> 16; let b := a ||| a >>> 8; let c := b ||| b >>> 4; let d := c ||| c >>> 2;
      let e := d ||| d >>> 1; e % 2) = if n = 0 then 0 else 1 := by
  extract_lets a b c d e
  have hz : n = 0 ↔ ∀ i < 32, n.testBit i = false := by
    constructor
    · intro h i _; rw [h]; simp
    · intro h
      apply Nat.eq_of_testBit_eq
      intro i
      rw [Nat.zero_testBit]
      rcases Nat.lt_or_ge i 32 with hi | hi
      · exact h i hi
      · exact Nat.testBit_lt_two_pow (lt_of_lt_of_le hn (Nat.pow_le_pow_right (by norm_num) hi))
  have he : e % 2 = if e.testBit 0 then 1 else 0 := by
    rw [Nat.testBit_zero]
    rcases Nat.mod_two_eq_zero_or_one e with h | h <;> simp [h]
  rw [he]
  have hb : e.testBit 0 = true ↔ n ≠ 0 := by
    rw [ne_eq, hz]
    simp only [a, b, c, d, e, smear_step]
    push Not
    constructor
    · intro h
      simp only [Bool.or_eq_true] at h
      by_contra hc
      push Not at hc
      simp [hc] at h
    · rintro ⟨i, hi, hb⟩
      simp only [Bool.or_eq_true]
      rw [Bool.ne_false_iff] at hb
      interval_cases i <;> simp [hb]
  by_cases hn0 : n = 0
  · rw [if_neg (by rw [hb]; simpa using hn0), if_pos hn0]
  · rw [if_pos (by rw [hb]; exact hn0), if_neg hn0]

theorem isNonZeroI_sc (s : Scalar) : Scalar.isNonZeroI s = flag (scVal s ≠ 0) := by
  unfold Scalar.isNonZeroI
  simp only
  have hz : (s[0] ||| s[1] ||| s[2] ||| s[3] ||| s[4] ||| s[5] ||| s[6] ||| s[7]) = 0 ↔ scVal s = 0 := by
    simp only [u32_or_eq_zero]
    unfold scVal
    constructor
    · rintro ⟨⟨⟨⟨⟨⟨⟨h0, h1⟩, h2⟩, h3⟩, h4⟩, h5⟩, h6⟩, h7⟩
      rw [h0, h1, h2, h3, h4, h5, h6, h7]; rfl
    · intro h
      refine ⟨⟨⟨⟨⟨⟨⟨?_, ?_⟩, ?_⟩, ?_⟩, ?_⟩, ?_⟩, ?_⟩, ?_⟩ <;> apply UInt32.toNat_inj.1 <;> simp only [UInt32.toNat_zero] <;> omega
  generalize s[0] ||| s[1] ||| s[2] ||| s[3] ||| s[4] ||| s[5] ||| s[6] ||| s[7] = r at *
  have hs := smear32 r.toNat r.toNat_lt
  have hv : ∀ y : UInt32, y.toNat = (let a := r.toNat ||| r.toNat >>> 16; let b := a ||| a >>> 8; let c := b ||| b >>> 4; let d := c ||| c >>> 2;
      d ||| d >>> 1) → y &&& 1 = if r = 0 then 0 else 1 := by
    intro y hy
    apply UInt32.toNat_inj.1
    rw [UInt32.toNat_and]
    have : y.toNat &&& (1 : UInt32).toNat = y.toNat % 2 := Nat.and_one_is_mod _
    rw [this, hy]
    refine Eq.trans hs ?_
    by_cases hr : r = 0
    · rw [if_pos hr, if_pos (by rw [hr]; rfl)]; rfl
    · rw [if_neg hr, if_neg (show ¬ r.toNat = 0 from fun h => hr (UInt32.toNat_inj.1 h))]; rfl
  rw [hv _ (by
    simp only [UInt32.toNat_or, UInt32.toNat_shiftRight]
    rfl)]
  by_cases h : r = 0
  · rw [if_pos h, flag, if_neg (by rw [not_not]; exact hz.1 h)]; rfl
  · rw [if_neg h, flag, if_pos (fun h' => h (hz.2 h'))]; rfl

theorem sub_eq_zero_iff {a b : Scalar} (hb : scVal b < l) :
    scVal (Scalar.sub a b) = 0 ↔ scVal a = scVal b := by
  have := sub_red (a := a) (b := b) (by omega)
  split at this <;> omega

theorem equalsI_sc {a b : Scalar} (hb : scVal b < l) :
    Scalar.equalsI a b = flag (scVal a = scVal b) := by
  unfold Scalar.equalsI
  rw [isNonZeroI_sc, one_sub_flag]
  exact flag_congr (by rw [not_not]; exact sub_eq_zero_iff hb)

theorem equals_sc {a b : Scalar} (hb : scVal b < l) :
    Scalar.equals a b = decide (scVal a = scVal b) := by
  unfold Scalar.equals
  rw [isNonZeroI_sc]
  have h := sub_eq_zero_iff (a := a) hb
  by_cases hc : scVal a = scVal b
  · have : scVal (Scalar.sub a b) = 0 := h.2 hc
    rw [flag, if_neg (by rw [not_not]; exact this)]; simp [hc]
  · have : scVal (Scalar.sub a b) ≠ 0 := fun h' => hc (h.1 h')
    rw [flag, if_pos this]; simp [hc]

theorem condSet_sc (s t : Scalar) : Scalar.condSet s t 0 = s ∧ Scalar.condSet s t 1 = t := by
  have e1 : ((-(1 : Int32)).toUInt32) = 0xffffffff := by decide
  have e0 : ((-(0 : Int32)).toUInt32) = 0 := by decide
  have a0 : ∀ x y : UInt32, x ^^^ ((0 : UInt32) &&& (x ^^^ y)) = x := by
    intro x y; rw [UInt32.zero_and, UInt32.xor_zero]
  have a1 : ∀ x y : UInt32, x ^^^ ((0xffffffff : UInt32) &&& (x ^^^ y)) = y := by
    intro x y
    have : (0xffffffff : UInt32) &&& (x ^^^ y) = x ^^^ y := by
      apply UInt32.toNat_inj.1
      rw [UInt32.toNat_and, Nat.and_comm]
      have h := Nat.and_two_pow_sub_one_eq_mod (x ^^^ y).toNat 32
      rw [Nat.mod_eq_of_lt (x ^^^ y).toNat_lt] at h
      exact h
    rw [this, ← UInt32.xor_assoc, UInt32.xor_self, UInt32.zero_xor]
  constructor
  · unfold Scalar.condSet
    simp only [e0, a0]
    apply Vector.ext; intro i hi; interval_cases i <;> rfl
  · unfold Scalar.condSet
    simp only [e1, a1]
    apply Vector.ext; intro i hi; interval_cases i <;> rfl

/-! ## Big integers -/

theorem bigSetBytes_append (a b : List UInt8) :
    bigSetBytes (a ++ b) = bigSetBytes a * 256 ^ b.length + bigSetBytes b := by
  unfold bigSetBytes
  rw [List.foldl_append]
  generalize List.foldl (fun acc (b : UInt8) => acc * 256 + b.toNat) 0 a = n
  have : ∀ (b : List UInt8) (n m : ℕ), List.foldl (fun acc (b : UInt8) => acc * 256 + b.toNat) (n * 256 ^ 0 + m) b =
      n * 256 ^ b.length + List.foldl (fun acc (b : UInt8) => acc * 256 + b.toNat) m b := by
    intro b
    induction b with
    | nil => intro n m; simp
    | cons x xs ih =>
      intro n m
      simp only [List.foldl_cons, List.length_cons]
      have := ih (n * 256) (m * 256 + x.toNat)
      rw [show (n * 256 ^ 0 + m) * 256 + x.toNat = n * 256 * 256 ^ 0 + (m * 256 + x.toNat) by ring, this]
      ring
  have h := this b n 0
  simpa using h

theorem bigSetBytes_reverse (xs : List UInt8) : bigSetBytes xs.reverse = leNat xs := by
  induction xs with
  | nil => rfl
  | cons x xs ih =>
    rw [List.reverse_cons, bigSetBytes_append, ih, leNat]
    simp [bigSetBytes]; ring

theorem bigBytes_val (n : ℕ) : leNat (bigBytes n).reverse = n := by
  induction n using Nat.strongRecOn with
  | _ n ih =>
    unfold bigBytes
    split
    · rename_i h; rw [h]; rfl
    · rename_i h
      rw [List.reverse_append]
      show leNat (UInt8.ofNat n :: (bigBytes (n / 256)).reverse) = n
      rw [leNat, ih (n / 256) (by omega)]
      have : (UInt8.ofNat n).toNat = n % 256 := by simp
      rw [this]; omega

theorem bigBytes_length (k : ℕ) : ∀ n, n < 256 ^ k → (bigBytes n).length ≤ k := by
  induction k with
  | zero =>
    intro n hn
    have : n = 0 := by simpa using hn
    rw [this]; unfold bigBytes; simp
  | succ k ih =>
    intro n hn
    unfold bigBytes
    split
    · simp
    · rw [List.length_append]
      have := ih (n / 256) (by rw [pow_succ] at hn; omega)
      simpa using this

theorem leNat_append_zeros (xs : List UInt8) (k : ℕ) : leNat (xs ++ List.replicate k 0) = leNat xs := by
  induction xs with
  | nil =>
    induction k with
    | zero => rfl
    | succ k ih => rw [List.replicate_succ]; simp only [List.nil_append] at *; show 0 + 256 * leNat (List.replicate k 0) = 0; rw [ih]; rfl
  | cons x xs ih => rw [List.cons_append, leNat, ih, leNat]

/-- A buffer holding the reversed list, zero-padded. -/
theorem padded_val (buf : List UInt8) (h : buf.length ≤ 32) :
    leVal (Vector.ofFn fun (i : Fin 32) =>
      if i.val < buf.length then buf.getD (buf.length - i.val - 1) 0 else 0) = leNat buf.reverse := by
  rw [← leNat_append_zeros buf.reverse (32 - buf.length)]
  unfold leVal
  apply congrArg leNat
  apply List.ext_getElem
  · simp; omega
  · intro i h1 h2
    have hi : i < 32 := by simpa using h1
    simp only [Vector.getElem_toList, Vector.getElem_ofFn]
    by_cases hb : i < buf.length
    · rw [if_pos hb, List.getElem_append_left (by simpa using hb), List.getElem_reverse,
        List.getD_eq_getElem _ _ (by omega)]
      congr 1; omega
    · rw [if_neg hb, List.getElem_append_right (by simpa using hb), List.getElem_replicate]

theorem bigInt_val (s : Scalar) : Scalar.bigInt s = scVal s := by
  unfold Scalar.bigInt
  rw [bigSetBytes_reverse]
  exact congrArg _ (bytes_val s)

theorem setBigInt_val (x : ℤ) : (scVal (Scalar.setBigInt x) : ℤ) = x % l := by
  have hl := l_eq
  unfold Scalar.setBigInt
  simp only
  have e : (0x1000000000000000000000000000000014def9dea2f79cd65812631a5cf5d3ed : ℤ) = (l : ℤ) := by
    rw [hl]; norm_num
  rw [e]
  have hpos : (0 : ℤ) < l := by rw [hl]; norm_num
  have h0 := Int.emod_nonneg x (ne_of_gt hpos)
  have h1 := Int.emod_lt_of_pos x hpos
  have hn : (x % (l : ℤ)).toNat < l := by omega
  have hlen := bigBytes_length 32 (x % (l : ℤ)).toNat (by
    refine lt_of_lt_of_le hn ?_
    rw [hl]; norm_num)
  rw [setBytes_val, padded_val _ hlen, bigBytes_val]
  have h253 : (x % (l : ℤ)).toNat < 2 ^ 253 := lt_trans hn (by rw [hl]; norm_num)
  rw [Nat.mod_eq_of_lt h253, Nat.mod_eq_of_lt hn]
  omega

theorem setUint64_val (x : UInt64) : scVal (Scalar.setUint64 x) = x.toNat := by
  unfold Scalar.setUint64
  rw [setBytes_val]
  have hx := x.toNat_lt
  have hv : leVal (Vector.ofFn fun (i : Fin 32) =>
      if i.val < 8 then (x >>> (UInt64.ofNat (8 * i.val))).toUInt8 else 0) = x.toNat := by
    have sh : ∀ (k : UInt64) (n : ℕ), k.toNat % 64 = n → (x >>> k).toUInt8.toNat = x.toNat / 2 ^ n % 256 := by
      intro k n hk
      rw [UInt64.toNat_toUInt8, UInt64.toNat_shiftRight, hk, Nat.shiftRight_eq_div_pow]
    rw [leVal_32]
    simp only [Vector.getElem_ofFn, Nat.reduceLT, if_true, if_false]
    rw [sh _ 0 rfl, sh _ 8 rfl, sh _ 16 rfl, sh _ 24 rfl, sh _ 32 rfl, sh _ 40 rfl, sh _ 48 rfl, sh _ 56 rfl]
    simp only [UInt8.toNat_zero]
    omega
  have h1 : x.toNat < 2 ^ 253 := by omega
  have h2 : x.toNat < l := by rw [l_eq]; omega
  rw [hv, Nat.mod_eq_of_lt h1, Nat.mod_eq_of_lt h2]

theorem deriveShort_val (h : Bytes 64) : scVal (Scalar.deriveShort h) = leNat (h.toList.take 16) := by
  show (load4u32 h[0] h[1] h[2] h[3]).toNat + (load4u32 h[4] h[5] h[6] h[7]).toNat * 2 ^ 32 +
     (load4u32 h[8] h[9] h[10] h[11]).toNat * 2 ^ 64 + (load4u32 h[12] h[13] h[14] h[15]).toNat * 2 ^ 96 +
     0 * 2 ^ 128 + 0 * 2 ^ 160 + 0 * 2 ^ 192 + 0 * 2 ^ 224 = _
  have ht : h.toList.take 16 = [h[0], h[1], h[2], h[3], h[4], h[5], h[6], h[7], h[8], h[9], h[10], h[11],
      h[12], h[13], h[14], h[15]] := by
    apply List.ext_getElem
    · simp
    · intro i h1 h2
      have hi : i < 16 := by simpa using h2
      interval_cases i <;> simp
  rw [ht]
  simp only [load4u32_val, leNat]
  ring

/-! ## SetReduced -/

/-- A nonnegative `Int64` with its value as a natural number. -/
def NN (x : Int64) (n : ℕ) : Prop := x.toBitVec.toNat = n ∧ n < 2 ^ 63

theorem NN.toInt {x : Int64} {n : ℕ} (h : NN x n) : x.toInt = n := by
  have h1 := h.1
  have h2 := h.2
  show x.toBitVec.toInt = n
  rw [BitVec.toInt_eq_toNat_of_lt (by omega), h1]

theorem NN.or {x y : Int64} {n m : ℕ} (hx : NN x n) (hy : NN y m) : NN (x ||| y) (n ||| m) := by
  refine ⟨?_, Nat.or_lt_two_pow hx.2 hy.2⟩
  rw [Int64.toBitVec_or, BitVec.toNat_or, hx.1, hy.1]

theorem NN.and {x y : Int64} {n m : ℕ} (hx : NN x n) (hy : NN y m) : NN (x &&& y) (n &&& m) := by
  refine ⟨?_, Nat.and_lt_two_pow _ hy.2⟩
  rw [Int64.toBitVec_and, BitVec.toNat_and, hx.1, hy.1]

theorem NN.of_toInt {x : Int64} {n : ℕ} (h : x.toInt = n) : NN x n := by
  have h' : x.toBitVec.toInt = n := h
  have hlt := x.toBitVec.isLt
  rw [BitVec.toInt_eq_toNat_bmod, Int.bmod_def] at h'
  constructor
  · split at h' <;> omega
  · split at h' <;> omega

theorem NN.shr {x : Int64} {n : ℕ} (k : Int64) (m : ℕ) (hk : (k.toBitVec.smod 64).toNat = m) (hx : NN x n) :
    NN (x >>> k) (n / 2 ^ m) := by
  apply NN.of_toInt
  rw [i64_shr x k m hk, hx.toInt]; push_cast; rfl

theorem NN.shl {x : Int64} {n : ℕ} (k : Int64) (m : ℕ) (hk : (k.toBitVec.smod 64).toNat = m) (hx : NN x n)
    (hb : n * 2 ^ m < 2 ^ 63) : NN (x <<< k) (n * 2 ^ m) := by
  apply NN.of_toInt
  have h0 : (0 : ℤ) ≤ (n : ℤ) * 2 ^ m := by positivity
  have hb' : ((n : ℤ) * 2 ^ m) < 2 ^ 63 := by exact_mod_cast hb
  rw [i64_shl' x k m hk (by rw [hx.toInt]; omega) (by rw [hx.toInt]; exact hb'), hx.toInt]; push_cast; rfl

/-- A byte of a little-endian string as a digit of its value. -/
theorem leNat_digit : ∀ (xs : List UInt8) (i : ℕ), (xs.getD i 0).toNat = leNat xs / 256 ^ i % 256 := by
  intro xs
  induction xs with
  | nil => intro i; simp [leNat]
  | cons x xs ih =>
    intro i
    have hx := x.toNat_lt
    cases i with
    | zero => rw [List.getD_cons_zero, leNat, pow_zero, Nat.div_one]; omega
    | succ i =>
      rw [List.getD_cons_succ, ih, leNat, pow_succ, mul_comm (256 ^ i) 256, ← Nat.div_div_eq_div_mul]
      congr 2; omega

theorem byteAt_val (t : Bytes 64) (i : ℕ) : NN (Scalar.byteAt t i) (leVal t / 256 ^ i % 256) := by
  have h : (Scalar.byteAt t i).toInt = (leVal t / 256 ^ i % 256 : ℕ) := by
    unfold Scalar.byteAt
    have hb := (t.toList.getD i 0).toNat_lt
    rw [toInt64_toInt _ (by rw [UInt8.toNat_toUInt64]; omega), UInt8.toNat_toUInt64, leNat_digit]; rfl
  exact NN.of_toInt h

theorem load3_val (t : Bytes 64) (o : ℕ) : NN (load3 t o) (leVal t / 256 ^ o % 2 ^ 24) := by
  unfold load3
  have h0 := byteAt_val t o
  have h1 := byteAt_val t (o + 1)
  have h2 := byteAt_val t (o + 2)
  rw [show leVal t / 256 ^ (o + 1) = leVal t / 256 ^ o / 256 by rw [pow_succ, Nat.div_div_eq_div_mul]] at h1
  rw [show leVal t / 256 ^ (o + 2) = leVal t / 256 ^ o / 256 / 256 by
    rw [Nat.div_div_eq_div_mul, Nat.div_div_eq_div_mul, pow_succ, pow_succ, mul_assoc]] at h2
  generalize leVal t / 256 ^ o = W at *
  have := (h0.or (h1.shl 8 8 (by decide) (by omega))).or (h2.shl 16 16 (by decide) (by omega))
  rw [or_add_pow _ _ 8 (by omega), or_add_pow _ _ 16 (by omega)] at this
  convert this using 1
  omega

theorem load4_val (t : Bytes 64) (o : ℕ) : NN (load4 t o) (leVal t / 256 ^ o % 2 ^ 32) := by
  unfold load4
  have h0 := byteAt_val t o
  have h1 := byteAt_val t (o + 1)
  have h2 := byteAt_val t (o + 2)
  have h3 := byteAt_val t (o + 3)
  rw [show leVal t / 256 ^ (o + 1) = leVal t / 256 ^ o / 256 by rw [pow_succ, Nat.div_div_eq_div_mul]] at h1
  rw [show leVal t / 256 ^ (o + 2) = leVal t / 256 ^ o / 256 / 256 by
    rw [Nat.div_div_eq_div_mul, Nat.div_div_eq_div_mul, pow_succ, pow_succ, mul_assoc]] at h2
  rw [show leVal t / 256 ^ (o + 3) = leVal t / 256 ^ o / 256 / 256 / 256 by
    rw [Nat.div_div_eq_div_mul, Nat.div_div_eq_div_mul, Nat.div_div_eq_div_mul, pow_succ, pow_succ, pow_succ, mul_assoc, mul_assoc]] at h3
  generalize leVal t / 256 ^ o = W at *
  have := ((h0.or (h1.shl 8 8 (by decide) (by omega))).or (h2.shl 16 16 (by decide) (by omega))).or
    (h3.shl 24 24 (by decide) (by omega))
  rw [or_add_pow _ _ 8 (by omega), or_add_pow _ _ 16 (by omega), or_add_pow _ _ 24 (by omega)] at this
  convert this using 1
  omega

theorem mask_val {x : Int64} {n : ℕ} (h : NN x n) : ((0x1FFFFF : Int64) &&& x).toInt = (n % 2 ^ 21 : ℕ) := by
  have hm : NN (0x1FFFFF : Int64) (2 ^ 21 - 1) := ⟨by decide, by norm_num⟩
  rw [(hm.and h).toInt, Nat.and_comm, Nat.and_two_pow_sub_one_eq_mod]

theorem window_div (V o n k w : ℕ) (hw : k + 21 ≤ w) (hk : 8 * o + k = n) :
    V / 256 ^ o % 2 ^ w / 2 ^ k % 2 ^ 21 = V / 2 ^ n % 2 ^ 21 := by
  have e256 : (256 : ℕ) ^ o = 2 ^ (8 * o) := by rw [pow_mul]; norm_num
  rw [e256, ← hk, pow_add, ← Nat.div_div_eq_div_mul]
  generalize V / 2 ^ (8 * o) = W
  have h1 : W % 2 ^ w / 2 ^ k = W / 2 ^ k % 2 ^ (w - k) := by
    rw [show (2 : ℕ) ^ w = 2 ^ k * 2 ^ (w - k) by rw [← pow_add]; congr 1; omega, Nat.mod_mul_right_div_self]
  rw [h1, Nat.mod_mod_of_dvd _ (pow_dvd_pow 2 (by omega : 21 ≤ w - k))]

theorem limb3 (t : Bytes 64) (o n : ℕ) (k : Int64) (m : ℕ) (hk : (k.toBitVec.smod 64).toNat = m) (hm : m ≤ 3)
    (hn : 8 * o + m = n) : ((0x1FFFFF : Int64) &&& (load3 t o >>> k)).toInt = (leVal t / 2 ^ n % 2 ^ 21 : ℕ) := by
  rw [mask_val ((load3_val t o).shr k m hk), window_div _ _ n m 24 (by omega) hn]

theorem limb3' (t : Bytes 64) (o n : ℕ) (hn : 8 * o = n) :
    ((0x1FFFFF : Int64) &&& load3 t o).toInt = (leVal t / 2 ^ n % 2 ^ 21 : ℕ) := by
  have h := window_div (leVal t) o n 0 24 (by norm_num) (by omega)
  rw [pow_zero, Nat.div_one] at h
  rw [mask_val (load3_val t o), h]

theorem limb4 (t : Bytes 64) (o n : ℕ) (k : Int64) (m : ℕ) (hk : (k.toBitVec.smod 64).toNat = m) (hm : m ≤ 11)
    (hn : 8 * o + m = n) : ((0x1FFFFF : Int64) &&& (load4 t o >>> k)).toInt = (leVal t / 2 ^ n % 2 ^ 21 : ℕ) := by
  rw [mask_val ((load4_val t o).shr k m hk), window_div _ _ n m 32 (by omega) hn]

theorem limb_top (t : Bytes 64) : (load4 t 60 >>> (3 : Int64)).toInt = (leVal t / 2 ^ 483 : ℕ) := by
  rw [((load4_val t 60).shr 3 3 (by decide)).toInt]
  have hlt := leVal_lt t
  have e : leVal t / 256 ^ 60 < 2 ^ 32 := by
    rw [Nat.div_lt_iff_lt_mul (by positivity)]
    exact lt_of_lt_of_eq hlt (by decide +kernel)
  rw [Nat.mod_eq_of_lt e, Nat.div_div_eq_div_mul]
  have e2 : (256 : ℕ) ^ 60 * 2 ^ 3 = 2 ^ 483 := by decide +kernel
  rw [e2]

theorem unpack64_vals (t : Bytes 64) (i : ℕ) (hi : i < 23) :
    (Limbs.ofList (unpack64 t) i).toInt = (leVal t / 2 ^ (21 * i) % 2 ^ 21 : ℕ) := by
  unfold Limbs.ofList unpack64
  interval_cases i <;> simp only [List.getD_cons_zero, List.getD_cons_succ]
  · exact limb3' t 0 0 rfl
  · exact limb4 t 2 21 5 5 (by decide) (by norm_num) rfl
  · exact limb3 t 5 42 2 2 (by decide) (by norm_num) rfl
  · exact limb4 t 7 63 7 7 (by decide) (by norm_num) rfl
  · exact limb4 t 10 84 4 4 (by decide) (by norm_num) rfl
  · exact limb3 t 13 105 1 1 (by decide) (by norm_num) rfl
  · exact limb4 t 15 126 6 6 (by decide) (by norm_num) rfl
  · exact limb3 t 18 147 3 3 (by decide) (by norm_num) rfl
  · exact limb3' t 21 168 rfl
  · exact limb4 t 23 189 5 5 (by decide) (by norm_num) rfl
  · exact limb3 t 26 210 2 2 (by decide) (by norm_num) rfl
  · exact limb4 t 28 231 7 7 (by decide) (by norm_num) rfl
  · exact limb4 t 31 252 4 4 (by decide) (by norm_num) rfl
  · exact limb3 t 34 273 1 1 (by decide) (by norm_num) rfl
  · exact limb4 t 36 294 6 6 (by decide) (by norm_num) rfl
  · exact limb3 t 39 315 3 3 (by decide) (by norm_num) rfl
  · exact limb3' t 42 336 rfl
  · exact limb4 t 44 357 5 5 (by decide) (by norm_num) rfl
  · exact limb3 t 47 378 2 2 (by decide) (by norm_num) rfl
  · exact limb4 t 49 399 7 7 (by decide) (by norm_num) rfl
  · exact limb4 t 52 420 4 4 (by decide) (by norm_num) rfl
  · exact limb3 t 55 441 1 1 (by decide) (by norm_num) rfl
  · exact limb4 t 57 462 6 6 (by decide) (by norm_num) rfl

theorem digits_sum (V : ℕ) : ∀ n, ∑ i ∈ Finset.range n, V / 2 ^ (21 * i) % 2 ^ 21 * 2 ^ (21 * i) = V % 2 ^ (21 * n) := by
  intro n
  induction n with
  | zero => simp [Nat.mod_one]
  | succ n ih =>
    rw [Finset.sum_range_succ, ih, show 21 * (n + 1) = 21 * n + 21 by ring, pow_add, Nat.mod_mul]
    ring

/-- Start intervals of `SetReduced`. -/
def startRed : Bnds := List.replicate 23 (0, 2 ^ 21 - 1) ++ [(0, 2 ^ 29 - 1)]

theorem startRed_ok : okA startRed = true := by decide +kernel
theorem startRed_at : ∀ i < 24, startRed.at i = if i < 23 then (0, 2 ^ 21 - 1) else (0, 2 ^ 29 - 1) := by
  decide +kernel

/-- `SetReduced` reduces the 512-bit value. -/
theorem setReduced_val (t : Bytes 64) : scVal (Scalar.setReduced t) = leVal t % l := by
  have h23 : (Limbs.ofList (unpack64 t) 23).toInt = (leVal t / 2 ^ 483 : ℕ) := limb_top t
  have htop : leVal t / 2 ^ 483 < 2 ^ 29 := by
    rw [Nat.div_lt_iff_lt_mul (by positivity)]
    exact lt_of_lt_of_eq (leVal_lt t) (by decide +kernel)
  have hW : Within (Limbs.ofList (unpack64 t)) startRed := by
    refine ⟨rfl, ?_⟩
    intro i hi
    rw [startRed_at i hi]
    rcases Nat.lt_or_ge i 23 with h | h
    · rw [if_pos h, unpack64_vals t i h]
      have : leVal t / 2 ^ (21 * i) % 2 ^ 21 < 2 ^ 21 := Nat.mod_lt _ (by norm_num)
      generalize leVal t / 2 ^ (21 * i) % 2 ^ 21 = d at *
      simp only; omega
    · have e : i = 23 := by omega
      subst e
      rw [if_neg (by norm_num), h23]
      generalize leVal t / 2 ^ 483 = d at *
      simp only; omega
  have hV : limbVal (Limbs.ofList (unpack64 t)) = leVal t := by
    unfold limbVal
    rw [Finset.sum_range_succ, h23]
    have : ∑ i ∈ Finset.range 23, (Limbs.ofList (unpack64 t) i).toInt * 2 ^ (21 * i) =
        ((leVal t % 2 ^ (21 * 23) : ℕ) : ℤ) := by
      rw [← digits_sum]
      push_cast
      apply Finset.sum_congr rfl
      intro i hi
      rw [unpack64_vals t i (Finset.mem_range.1 hi)]
      push_cast; rfl
    rw [this]
    have h : leVal t % 2 ^ (21 * 23) + leVal t / 2 ^ 483 * 2 ^ (21 * 23) = leVal t := by
      rw [mul_comm (leVal t / 2 ^ 483)]; exact Nat.mod_add_div _ _
    exact_mod_cast h
  have h := reduceTail_spec hW startRed_ok
  unfold Scalar.setReduced
  rw [hV] at h
  exact_mod_cast h

/-! ## Inversion -/

instance : Fact l.Prime := ⟨l_prime⟩

/-- The scalar as an element of the prime field. -/
def scZ (s : Scalar) : ZMod l := (scVal s : ZMod l)

theorem scZ_mul (a b : Scalar) : scZ (Scalar.mul a b) = scZ a * scZ b := by
  unfold scZ; rw [mul_spec, ZMod.natCast_mod]; push_cast; rfl

theorem scZ_square (a : Scalar) : scZ (Scalar.square a) = scZ a * scZ a := by
  unfold scZ; rw [square_spec, ZMod.natCast_mod]; push_cast; rfl

/-- Addition of known exponents. -/
def expAdd (a b : Option ℕ) : Option ℕ := a.bind fun x => b.map fun y => x + y
/-- Doubling of a known exponent. -/
def expDbl (a : Option ℕ) : Option ℕ := a.map fun x => x + x

theorem inv_step (x : ZMod l) (o : InvOp) (r : ℕ → Scalar) (E : ℕ → Option ℕ)
    (h : ∀ k e, E k = some e → scZ (r k) = x ^ e) :
    ∀ k e, o.exec expAdd expDbl E k = some e → scZ (o.exec Scalar.mul Scalar.square r k) = x ^ e := by
  intro k e
  cases o with
  | sq d s =>
    simp only [InvOp.exec, setReg]
    split
    · intro he
      unfold expDbl at he
      rw [Option.map_eq_some_iff] at he
      obtain ⟨a, ha, rfl⟩ := he
      rw [scZ_square, h _ _ ha, pow_add]
    · exact h k e
  | mul d a b =>
    simp only [InvOp.exec, setReg]
    split
    · intro he
      unfold expAdd at he
      rw [Option.bind_eq_some_iff] at he
      obtain ⟨u, hu, he⟩ := he
      rw [Option.map_eq_some_iff] at he
      obtain ⟨v, hv, rfl⟩ := he
      rw [scZ_mul, h _ _ hu, h _ _ hv, pow_add]
    · exact h k e

theorem inv_run (x : ZMod l) (os : List InvOp) : ∀ (r : ℕ → Scalar) (E : ℕ → Option ℕ),
    (∀ k e, E k = some e → scZ (r k) = x ^ e) →
    ∀ k e, os.foldl (fun r o => o.exec expAdd expDbl r) E k = some e →
      scZ (os.foldl (fun r o => o.exec Scalar.mul Scalar.square r) r k) = x ^ e := by
  induction os with
  | nil => intro r E h; exact h
  | cons o os ih => intro r E h; exact ih _ _ (inv_step x o r E h)

/-- The exponents on registers held in a list (so that the kernel can evaluate them quickly). -/
def expRun : List InvOp → List (Option ℕ) → List (Option ℕ)
  | [], E => E
  | .sq d s :: os, E => expRun os (E.set d (expDbl (E.getD s none)))
  | .mul d a b :: os, E => expRun os (E.set d (expAdd (E.getD a none) (E.getD b none)))

theorem expRun_spec (os : List InvOp) : ∀ (E : List (Option ℕ)) (f : ℕ → Option ℕ), E.length = 7 →
    (∀ k < 7, f k = E.getD k none) → (∀ o ∈ os, match o with
      | .sq d s => d < 7 ∧ s < 7
      | .mul d a b => d < 7 ∧ a < 7 ∧ b < 7) → ∀ k < 7,
    os.foldl (fun r o => o.exec expAdd expDbl r) f k = (expRun os E).getD k none := by
  induction os with
  | nil => intro E f hE h _; exact h
  | cons o os ih =>
    intro E f hE h hos
    have ho := hos o (by simp)
    have hos' : ∀ o ∈ os, match o with
      | .sq d s => d < 7 ∧ s < 7
      | .mul d a b => d < 7 ∧ a < 7 ∧ b < 7 := fun o h => hos o (by simp [h])
    cases o with
    | sq d s =>
      simp only at ho
      apply ih _ _ (by simpa using hE) _ hos'
      intro k hk
      simp only [InvOp.exec, setReg]
      rw [List.getD_eq_getElem?_getD, List.getElem?_set]
      by_cases hkd : k = d
      · subst hkd; rw [if_pos rfl, if_pos rfl, if_pos (by omega), h s ho.2]; rfl
      · rw [if_neg hkd, if_neg (Ne.symm hkd), h k hk, List.getD_eq_getElem?_getD]
    | mul d a b =>
      simp only at ho
      apply ih _ _ (by simpa using hE) _ hos'
      intro k hk
      simp only [InvOp.exec, setReg]
      rw [List.getD_eq_getElem?_getD, List.getElem?_set]
      by_cases hkd : k = d
      · subst hkd; rw [if_pos rfl, if_pos rfl, if_pos (by omega), h a ho.2.1, h b ho.2.2]; rfl
      · rw [if_neg hkd, if_neg (Ne.symm hkd), h k hk, List.getD_eq_getElem?_getD]

def expInit : List (Option ℕ) := [none, none, none, none, none, none, some 1]

/-- The exponents the straight-line program ends with add up to `l - 2`. -/
def expCheck : Bool := match (expRun invProg expInit).getD 0 none, (expRun invProg expInit).getD 3 none with
  | some a, some b => b + a * 2 ^ 126 == l - 2
  | _, _ => false

theorem expCheck_ok : expCheck = true := by decide +kernel

theorem invProg_regs : invProg.all (fun o => match o with
      | .sq d s => decide (d < 7 ∧ s < 7)
      | .mul d a b => decide (d < 7 ∧ a < 7 ∧ b < 7)) = true := by decide +kernel

theorem repeat_square (n : ℕ) (x : ZMod l) : ∀ (s : Scalar) (e : ℕ), scZ s = x ^ e →
    scZ (Nat.repeat Scalar.square n s) = x ^ (e * 2 ^ n) := by
  induction n with
  | zero => intro s e h; simpa [Nat.repeat] using h
  | succ n ih =>
    intro s e h
    show scZ (Scalar.square (Nat.repeat Scalar.square n s)) = _
    rw [scZ_square, ih s e h, ← pow_add]
    congr 1; ring

/-- `Inverse` raises to the power `l - 2`. -/
theorem inverse_pow (t : Scalar) : scZ (Scalar.inverse t) = scZ t ^ (l - 2) := by
  have hc := expCheck_ok
  unfold expCheck at hc
  unfold Scalar.inverse
  simp only
  have hreg : ∀ o ∈ invProg, match o with
      | .sq d s => d < 7 ∧ s < 7
      | .mul d a b => d < 7 ∧ a < 7 ∧ b < 7 := by
    intro o ho
    have := List.all_eq_true.1 invProg_regs o ho
    cases o <;> simpa using this
  have hrun := expRun_spec invProg expInit (fun k => if k = 6 then some 1 else none) rfl (by
    intro k hk; interval_cases k <;> rfl) hreg
  have h0 := hrun 0 (by norm_num)
  have h3 := hrun 3 (by norm_num)
  have hinv := inv_run (scZ t) invProg (fun k => if k = 6 then t else scZero) (fun k => if k = 6 then some 1 else none) (by
    intro k e
    split
    · intro h; cases h; simp
    · intro h; cases h)
  split at hc
  · rename_i a b ha hb
    rw [ha] at h0
    rw [hb] at h3
    rw [scZ_mul, hinv 3 b h3, repeat_square 126 (scZ t) _ a (hinv 0 a h0), ← pow_add]
    rw [beq_iff_eq] at hc
    rw [hc]
  · cases hc

theorem inverse_red (t : Scalar) : scVal (Scalar.inverse t) < l := by
  unfold Scalar.inverse
  simp only
  rw [mul_spec]
  exact Nat.mod_lt _ l_prime.pos

/-- The product with the inverse is one, unless the scalar is zero. -/
theorem inverse_mul (t : Scalar) (h : scVal t % l ≠ 0) : scVal (Scalar.inverse t) * scVal t % l = 1 := by
  have hne : scZ t ≠ 0 := by
    unfold scZ
    rw [ne_eq, ZMod.natCast_eq_zero_iff]
    intro hd; exact h (Nat.mod_eq_zero_of_dvd hd)
  have hz : ((scVal (Scalar.inverse t) * scVal t : ℕ) : ZMod l) = ((1 : ℕ) : ZMod l) := by
    push_cast
    show scZ (Scalar.inverse t) * scZ t = 1
    rw [inverse_pow, ← pow_succ]
    have h2 : l - 2 + 1 = l - 1 := by have := l_prime.two_le; rw [l_eq]
    rw [h2]
    exact ZMod.pow_card_sub_one_eq_one hne
  rw [ZMod.natCast_eq_natCast_iff] at hz
  have h1 : 1 % l = 1 := Nat.mod_eq_of_lt l_prime.one_lt
  have := hz
  unfold Nat.ModEq at this
  rw [this, h1]

theorem inverse_zero (t : Scalar) (h : scVal t % l = 0) : scVal (Scalar.inverse t) = 0 := by
  have hz : scZ t = 0 := by
    unfold scZ
    rw [ZMod.natCast_eq_zero_iff]; exact Nat.dvd_of_mod_eq_zero h
  have h2 : scZ (Scalar.inverse t) = 0 := by
    rw [inverse_pow, hz, zero_pow]
    rw [l_eq]; norm_num
  unfold scZ at h2
  rw [ZMod.natCast_eq_zero_iff] at h2
  exact Nat.eq_zero_of_dvd_of_lt h2 (inverse_red t)

end Ristretto.Proofs
