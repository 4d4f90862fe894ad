import Verif.Proofs.ScalarMult

/-!
# `VarTimeScalarMult` computes `s • P`
-/

namespace Ristretto.Proofs
open Model FieldOps LawfulField
set_option autoImplicit false

variable {F : Type} [LawfulField F]

/-! ## The recoding -/

theorem leUint64_toNat (b0 b1 b2 b3 b4 b5 b6 b7 : UInt8) : (leUint64 b0 b1 b2 b3 b4 b5 b6 b7).toNat =
    b0.toNat + 256 * b1.toNat + 256 ^ 2 * b2.toNat + 256 ^ 3 * b3.toNat + 256 ^ 4 * b4.toNat +
    256 ^ 5 * b5.toNat + 256 ^ 6 * b6.toNat + 256 ^ 7 * b7.toNat := by
  have h0 := b0.toNat_lt
  have h1 := b1.toNat_lt
  have h2 := b2.toNat_lt
  have h3 := b3.toNat_lt
  have h4 := b4.toNat_lt
  have h5 := b5.toNat_lt
  have h6 := b6.toNat_lt
  have h7 := b7.toNat_lt
  have sh : ∀ (b : UInt8) (k : ℕ), k ≤ 7 → (b.toUInt64 <<< (UInt64.ofNat (8 * k))).toNat = b.toNat * 256 ^ k := by
    intro b k hk
    have := b.toNat_lt
    have hm : (UInt64.ofNat (8 * k)).toNat = 8 * k := by
      simp; omega
    rw [UInt64.toNat_shiftLeft, UInt8.toNat_toUInt64, hm, Nat.mod_eq_of_lt (a := 8 * k) (by omega),
      Nat.shiftLeft_eq, show 2 ^ (8 * k) = 256 ^ k by rw [pow_mul]; norm_num]
    apply Nat.mod_eq_of_lt
    calc b.toNat * 256 ^ k < 256 * 256 ^ k := Nat.mul_lt_mul_of_pos_right (by omega) (by positivity)
      _ = 256 ^ (k + 1) := by ring
      _ ≤ 256 ^ 8 := Nat.pow_le_pow_right (by norm_num) (by omega)
      _ = 2 ^ 64 := by norm_num
  have or_add : ∀ (a b k : ℕ), a < 256 ^ k → a ||| b * 256 ^ k = a + b * 256 ^ k := by
    intro a b k ha
    rw [show (256 : ℕ) ^ k = 2 ^ (8 * k) by rw [pow_mul]; norm_num] at *
    rw [Nat.or_comm, mul_comm, ← Nat.two_pow_add_eq_or_of_lt ha]; ring
  have s1 := sh b1 1 (by norm_num)
  have s2 := sh b2 2 (by norm_num)
  have s3 := sh b3 3 (by norm_num)
  have s4 := sh b4 4 (by norm_num)
  have s5 := sh b5 5 (by norm_num)
  have s6 := sh b6 6 (by norm_num)
  have s7 := sh b7 7 (by norm_num)
  have e : leUint64 b0 b1 b2 b3 b4 b5 b6 b7 = b0.toUInt64 ||| b1.toUInt64 <<< (UInt64.ofNat (8 * 1)) |||
    b2.toUInt64 <<< (UInt64.ofNat (8 * 2)) ||| b3.toUInt64 <<< (UInt64.ofNat (8 * 3)) |||
    b4.toUInt64 <<< (UInt64.ofNat (8 * 4)) ||| b5.toUInt64 <<< (UInt64.ofNat (8 * 5)) |||
    b6.toUInt64 <<< (UInt64.ofNat (8 * 6)) ||| b7.toUInt64 <<< (UInt64.ofNat (8 * 7)) := rfl
  rw [e]
  simp only [UInt64.toNat_or, s1, s2, s3, s4, s5, s6, s7, UInt8.toNat_toUInt64]
  rw [or_add _ _ 1 (by omega), or_add _ _ 2 (by omega), or_add _ _ 3 (by omega), or_add _ _ 4 (by omega),
    or_add _ _ 5 (by omega), or_add _ _ 6 (by omega), or_add _ _ 7 (by omega)]
  ring

theorem nafWord_sum (s : Bytes 32) : leVal s = (nafWord s 0).toNat + 2 ^ 64 * (nafWord s 1).toNat +
    2 ^ 128 * (nafWord s 2).toNat + 2 ^ 192 * (nafWord s 3).toNat := by
  rw [leVal_32]
  simp only [nafWord, leUint64_toNat]
  ring

theorem nafWord_testBit (s : Bytes 32) (k j : ℕ) (hj : j < 64) :
    (nafWord s k).toNat.testBit j = (leVal s).testBit (64 * k + j) := by
  have h0 := (nafWord s 0).toNat_lt
  have h1 := (nafWord s 1).toNat_lt
  have h2 := (nafWord s 2).toNat_lt
  have h3 := (nafWord s 3).toNat_lt
  have hs := nafWord_sum s
  have key : (leVal s / 2 ^ (64 * k)) % 2 ^ 64 = (nafWord s k).toNat := by
    rcases k with _ | _ | _ | _ | k
    · rw [hs]; norm_num; omega
    · rw [hs]; norm_num; omega
    · rw [hs]; norm_num; omega
    · rw [hs]; norm_num; omega
    · have : leVal s < 2 ^ (64 * (k + 1 + 1 + 1 + 1)) := by
        have h := leVal_lt s
        calc leVal s < 256 ^ 32 := h
          _ = 2 ^ 256 := by norm_num
          _ ≤ _ := Nat.pow_le_pow_right (by norm_num) (by omega)
      rw [Nat.div_eq_of_lt this]
      simp [nafWord]
  rw [← key, Nat.testBit_mod_two_pow, Nat.testBit_div_two_pow]
  simp [hj, add_comm]

theorem nafBits_spec (s : Bytes 32) (pos : ℕ) : (nafBits (nafWord s) pos &&& 31).toNat = leVal s / 2 ^ pos % 32 := by
  apply Nat.eq_of_testBit_eq
  intro i
  have h31 : (31 : UInt64).toNat = 2 ^ 5 - 1 := rfl
  have h32 : ∀ x : ℕ, x % 32 = x % 2 ^ 5 := fun _ => rfl
  rw [UInt64.toNat_and, h31, Nat.and_two_pow_sub_one_eq_mod,
    Nat.testBit_mod_two_pow, h32, Nat.testBit_mod_two_pow, Nat.testBit_div_two_pow]
  by_cases hi : i < 5
  · simp only [hi, decide_true, Bool.true_and]
    have hb : pos % 64 < 64 := Nat.mod_lt _ (by norm_num)
    have hof : ∀ n : ℕ, n ≤ 64 → (UInt64.ofNat n).toNat = n := by
      intro n hn; simp; omega
    have hpos : 64 * (pos / 64) + pos % 64 = pos := by omega
    unfold nafBits
    simp only
    split
    · rename_i h59
      rw [UInt64.toNat_shiftRight, hof _ (by omega), Nat.mod_eq_of_lt (a := pos % 64) (b := 64) hb,
        Nat.testBit_shiftRight, nafWord_testBit s _ _ (by omega)]
      congr 1; omega
    · rename_i h59
      rw [UInt64.toNat_or, Nat.testBit_or, UInt64.toNat_shiftRight, hof _ (by omega),
        Nat.mod_eq_of_lt (a := pos % 64) (b := 64) hb, Nat.testBit_shiftRight, UInt64.toNat_shiftLeft,
        hof _ (by omega), Nat.mod_eq_of_lt (a := 64 - pos % 64) (b := 64) (by omega),
        Nat.testBit_mod_two_pow, Nat.testBit_shiftLeft]
      simp only [show i < 64 by omega, decide_true, Bool.true_and]
      by_cases hc : pos % 64 + i < 64
      · rw [nafWord_testBit s _ _ hc]
        have : ¬ (i ≥ 64 - pos % 64) := by omega
        simp only [this, decide_false, Bool.false_and, Bool.or_false]
        congr 1; omega
      · have h1 : i ≥ 64 - pos % 64 := by omega
        simp only [h1, decide_true, Bool.true_and]
        rw [nafWord_testBit s _ (i - (64 - pos % 64)) (by omega)]
        have h2 : (nafWord s (pos / 64)).toNat.testBit (pos % 64 + i) = false := by
          apply Nat.testBit_lt_two_pow
          calc (nafWord s (pos / 64)).toNat < 2 ^ 64 := (nafWord s (pos / 64)).toNat_lt
            _ ≤ _ := Nat.pow_le_pow_right (by norm_num) (by omega)
        rw [h2, Bool.false_or]
        congr 1; omega
  · simp [hi]

/-- The value of the recoding from digit `i` on, as seen from digit `i`. -/
def nafTail (naf : ℕ → Int8) : ℕ → ℕ → ℤ
  | 0, _ => 0
  | n + 1, i => (naf i).toInt + 2 * nafTail naf n (i + 1)

/-- Digits are zero or odd and at most 15 in absolute value. -/
def NafOk (naf : ℕ → Int8) : Prop := ∀ i, naf i = 0 ∨
  ((naf i).toInt % 2 = 1 ∧ -15 ≤ (naf i).toInt ∧ (naf i).toInt ≤ 15)

theorem nafTail_zero (naf : ℕ → Int8) (n i : ℕ) (h : ∀ j, i ≤ j → naf j = 0) : nafTail naf n i = 0 := by
  induction n generalizing i with
  | zero => rfl
  | succ n ih =>
    simp only [nafTail, h i le_rfl, ih (i + 1) (fun j hj => h j (by omega))]
    rfl

/-- Changing digit `pos` from zero changes the value by `v * 2^pos`. -/
theorem nafTail_set (naf : ℕ → Int8) (pos : ℕ) (v : Int8) (h0 : naf pos = 0) (n i : ℕ) (hi : i ≤ pos)
    (hn : pos < i + n) : nafTail (nafSet naf pos v) n i = nafTail naf n i + v.toInt * 2 ^ (pos - i) := by
  induction n generalizing i with
  | zero => omega
  | succ n ih =>
    simp only [nafTail]
    by_cases h : i = pos
    · subst h
      have : nafTail (nafSet naf i v) n (i + 1) = nafTail naf n (i + 1) := by
        clear ih hn
        have : ∀ m j, i < j → nafTail (nafSet naf i v) m j = nafTail naf m j := by
          intro m
          induction m with
          | zero => intros; rfl
          | succ m ihm =>
            intro j hj
            simp only [nafTail, ihm (j + 1) (by omega)]
            rw [nafSet, if_neg (by omega)]
        exact this n (i + 1) (by omega)
      rw [this, nafSet, if_pos rfl, h0]
      simp; ring
    · rw [ih (i + 1) (by omega) (by omega), nafSet, if_neg h]
      rw [show pos - i = (pos - (i + 1)) + 1 by omega, pow_succ]
      ring

theorem nafSet_ok {naf : ℕ → Int8} {pos : ℕ} {v : Int8} (h : NafOk naf)
    (hv : v.toInt % 2 = 1 ∧ -15 ≤ v.toInt ∧ v.toInt ≤ 15) : NafOk (nafSet naf pos v) := by
  intro i
  unfold nafSet
  split
  · exact Or.inr hv
  · exact h i

theorem window_small : ∀ k : Fin 32, k.val % 2 = 1 → k.val < 16 →
    ((UInt64.ofNat k).toUInt8.toInt8).toInt = k.val := by decide +kernel
theorem window_big : ∀ k : Fin 32, k.val % 2 = 1 → 16 ≤ k.val →
    ((UInt64.ofNat k).toUInt8.toInt8 - 32).toInt = (k.val : ℤ) - 32 := by decide +kernel

theorem nafLoop_spec (s : Bytes 32) (hs : leVal s < 2 ^ 255) : ∀ (fuel pos : ℕ) (carry : UInt64)
    (naf : ℕ → Int8), 256 ≤ pos + fuel → carry.toNat ≤ 1 → (carry.toNat = 1 → pos ≤ 255) →
    (∀ j, pos ≤ j → naf j = 0) → (∀ j, 256 ≤ j → naf j = 0) → NafOk naf →
    nafTail naf 256 0 + ((carry.toNat : ℤ) + (leVal s / 2 ^ pos : ℕ)) * 2 ^ pos = leVal s →
    nafTail (nafLoop (nafWord s) fuel pos carry naf) 256 0 = leVal s ∧
    NafOk (nafLoop (nafWord s) fuel pos carry naf) ∧
    (∀ j, 256 ≤ j → nafLoop (nafWord s) fuel pos carry naf j = 0) := by
  have done : ∀ (pos : ℕ) (carry : UInt64) (naf : ℕ → Int8), 256 ≤ pos → carry.toNat ≤ 1 →
      (carry.toNat = 1 → pos ≤ 255) →
      nafTail naf 256 0 + ((carry.toNat : ℤ) + (leVal s / 2 ^ pos : ℕ)) * 2 ^ pos = leVal s →
      nafTail naf 256 0 = leVal s := by
    intro pos carry naf hp hc1 hc2 hv
    have hc : carry.toNat = 0 := by
      by_contra h; have := hc2 (by omega); omega
    have : leVal s / 2 ^ pos = 0 := Nat.div_eq_of_lt (lt_of_lt_of_le hs (Nat.pow_le_pow_right (by norm_num) (by omega)))
    rw [hc, this] at hv
    simpa using hv
  intro fuel
  induction fuel with
  | zero =>
    intro pos carry naf hf hc1 hc2 h0 hz hok hv
    exact ⟨done pos carry naf (by omega) hc1 hc2 hv, hok, hz⟩
  | succ fuel ih =>
    intro pos carry naf hf hc1 hc2 h0 hz hok hv
    simp only [nafLoop]
    by_cases hp : pos < 256
    · rw [if_pos hp]
      have hbits := nafBits_spec s pos
      generalize hb : nafBits (nafWord s) pos &&& 31 = b at *
      have hdiv : leVal s / 2 ^ pos = leVal s / 2 ^ pos / 32 * 32 + b.toNat := by omega
      have hd5 : leVal s / 2 ^ pos / 32 = leVal s / 2 ^ (pos + 5) := by
        rw [Nat.div_div_eq_div_mul, pow_add]; norm_num
      have hd1 : leVal s / 2 ^ pos / 2 = leVal s / 2 ^ (pos + 1) := by
        rw [Nat.div_div_eq_div_mul, pow_add, pow_one]
      have hb32 : b.toNat < 32 := by omega
      have hw : (carry + b).toNat = carry.toNat + b.toNat := by
        rw [UInt64.toNat_add]; apply Nat.mod_eq_of_lt; omega
      generalize hwin : carry + b = win at *
      have hand : (win &&& 1 == 0) = decide (win.toNat % 2 = 0) := by
        have h1 : (win &&& 1).toNat = win.toNat % 2 := by
          rw [UInt64.toNat_and, show (1 : UInt64).toNat = 2 ^ 1 - 1 from rfl, Nat.and_two_pow_sub_one_eq_mod]
        have : (win &&& 1 = 0) ↔ win.toNat % 2 = 0 := by
          rw [← h1, ← UInt64.toNat_inj]; rfl
        rw [Bool.eq_iff_iff]; simp [this]
      rw [hand]
      -- bound on the position of the highest bit
      have htop : ∀ k, 255 ≤ k → leVal s / 2 ^ k = 0 := fun k hk =>
        Nat.div_eq_of_lt (lt_of_lt_of_le hs (Nat.pow_le_pow_right (by norm_num) hk))
      by_cases he : win.toNat % 2 = 0
      · rw [if_pos (by simpa using he)]
        apply ih (pos + 1) carry naf (by omega) hc1 _ (fun j hj => h0 j (by omega)) hz hok
        · rw [← hv, ← hd1]
          have : (leVal s / 2 ^ pos : ℕ) + carry.toNat = 2 * (leVal s / 2 ^ pos / 2 + carry.toNat) := by
            omega
          have e : (((leVal s / 2 ^ pos : ℕ) : ℤ) + (carry.toNat : ℤ)) = 2 * (((leVal s / 2 ^ pos / 2 : ℕ) : ℤ) + (carry.toNat : ℤ)) := by
            exact_mod_cast this
          rw [pow_succ]
          linear_combination (-(2 : ℤ) ^ pos) * e
        · intro hc
          by_contra hcon
          have : leVal s / 2 ^ pos = 0 := htop pos (by omega)
          rw [this] at hbits
          omega
      · rw [if_neg (by simpa using he)]
        have hwo : win.toNat % 2 = 1 := by omega
        have hw32 : win.toNat < 32 := by omega
        have hwof : win = UInt64.ofNat win.toNat := by simp
        have hlt : (win < 16) ↔ win.toNat < 16 := UInt64.lt_iff_toNat_lt
        have hpos0 := h0 pos le_rfl
        by_cases h16 : win.toNat < 16
        · rw [if_pos (hlt.2 h16)]
          have hval : (win.toUInt8.toInt8).toInt = win.toNat := by
            have := window_small ⟨win.toNat, hw32⟩ hwo h16
            rw [hwof]; simpa using this
          apply ih (pos + 5) 0 _ (by omega) (by decide) (by simp)
          · intro j hj
            rw [nafSet, if_neg (by omega)]; exact h0 j (by omega)
          · intro j hj
            rw [nafSet, if_neg (by omega)]; exact hz j hj
          · exact nafSet_ok hok (by rw [hval]; omega)
          · rw [nafTail_set _ _ _ hpos0 _ _ (by omega) (by omega), hval, ← hv, ← hd5, hw]
            have : ((leVal s / 2 ^ pos : ℕ) : ℤ) = (leVal s / 2 ^ pos / 32 : ℕ) * 32 + b.toNat := by exact_mod_cast hdiv
            simp only [Nat.sub_zero, pow_add]
            push_cast at this ⊢
            linear_combination (-(2 : ℤ) ^ pos) * this
        · rw [if_neg (fun h => h16 (hlt.1 h))]
          have hval : (win.toUInt8.toInt8 - 32).toInt = (win.toNat : ℤ) - 32 := by
            have := window_big ⟨win.toNat, hw32⟩ hwo (by simpa using h16)
            rw [hwof]; simpa using this
          apply ih (pos + 5) 1 _ (by omega) (by decide)
          · intro _
            -- bit pos+4 is set
            by_contra hcon
            have h4 : leVal s / 2 ^ (pos + 4) = 0 := htop _ (by omega)
            have : leVal s / 2 ^ pos / 16 = leVal s / 2 ^ (pos + 4) := by
              rw [Nat.div_div_eq_div_mul, pow_add]; norm_num
            omega
          · intro j hj
            rw [nafSet, if_neg (by omega)]; exact h0 j (by omega)
          · intro j hj
            rw [nafSet, if_neg (by omega)]; exact hz j hj
          · exact nafSet_ok hok (by rw [hval]; omega)
          · rw [nafTail_set _ _ _ hpos0 _ _ (by omega) (by omega), hval, ← hv, ← hd5, hw]
            have : ((leVal s / 2 ^ pos : ℕ) : ℤ) = (leVal s / 2 ^ pos / 32 : ℕ) * 32 + b.toNat := by exact_mod_cast hdiv
            have h1 : ((1 : UInt64).toNat : ℤ) = 1 := rfl
            rw [h1]
            simp only [Nat.sub_zero, pow_add]
            push_cast at this ⊢
            linear_combination (-(2 : ℤ) ^ pos) * this
    · rw [if_neg hp]
      exact ⟨done pos carry naf (by omega) hc1 hc2 hv, hok, hz⟩

theorem computeScalar5NAF_spec (s : Bytes 32) (hs : leVal s < 2 ^ 255) :
    nafTail (computeScalar5NAF s) 256 0 = leVal s ∧ NafOk (computeScalar5NAF s) ∧
    (∀ j, 256 ≤ j → computeScalar5NAF s j = 0) := by
  apply nafLoop_spec s hs 256 0 0 (fun _ => 0) (by norm_num) (by decide) (by simp) (by simp) (by simp)
  · intro i; exact Or.inl rfl
  · rw [nafTail_zero _ _ _ (by simp)]; simp

/-! ## The multiplication -/

theorem varTimeLutLoop_spec {d : ExtPt F} {P : EPoint} (hd : IsPt d (P + P)) : ∀ (n m : ℕ) (c : ExtPt F),
    IsPt c ((2 * m + 1) • P) → (varTimeLutLoop d n c).length = n ∧
    ∀ (k : ℕ) (e : ExtPt F), (varTimeLutLoop d n c)[k]? = some e → IsPt e ((2 * (m + k) + 1) • P) := by
  intro n
  induction n with
  | zero => intro m c _; simp [varTimeLutLoop]
  | succ n ih =>
    intro m c hc
    have hn : IsPt (ExtPt.add c d) ((2 * (m + 1) + 1) • P) := by
      convert add_spec hc hd using 1
      rw [← two_nsmul, ← add_nsmul]; congr 1
    obtain ⟨hl, hk⟩ := ih (m + 1) _ hn
    simp only [varTimeLutLoop]
    refine ⟨by simp [hl], ?_⟩
    intro k e he
    rcases k with _ | k
    · simp at he; subst he; simpa using hc
    · have := hk k e (by simpa using he)
      rw [show m + (k + 1) = m + 1 + k by ring]; exact this

theorem lut_pos : ∀ w : Int8, w.toInt % 2 = 1 → -15 ≤ w.toInt → w.toInt ≤ 15 → w > 0 →
    ¬ ((w + 1) / 2 - 1 < 0) ∧ ((w + 1) / 2 - 1).toInt.toNat < 8 ∧
    2 * (((w + 1) / 2 - 1).toInt.toNat : ℤ) + 1 = w.toInt := int8_forall (by decide +kernel)
theorem lut_neg : ∀ w : Int8, w.toInt % 2 = 1 → -15 ≤ w.toInt → w.toInt ≤ 15 → ¬ w > 0 →
    ¬ ((1 - w) / 2 - 1 < 0) ∧ ((1 - w) / 2 - 1).toInt.toNat < 8 ∧
    2 * (((1 - w) / 2 - 1).toInt.toNat : ℤ) + 1 = -w.toInt := int8_forall (by decide +kernel)

theorem lutGet_spec {q : ExtPt F} {P : EPoint} (hq : IsPt q P) (k : Int8) (h0 : ¬ k < 0)
    (h8 : k.toInt.toNat < 8) : ∃ e, lutGet (varTimeLut q) k = some e ∧
      IsPt e ((2 * (k.toInt.toNat : ℤ) + 1) • P) := by
  have hq1 : IsPt q ((2 * 0 + 1) • P) := by simpa using hq
  obtain ⟨hl, hk⟩ := varTimeLutLoop_spec (double_spec hq) 8 0 q hq1
  have hlt : k.toInt.toNat < (varTimeLut q).length := by rw [varTimeLut, hl]; exact h8
  refine ⟨(varTimeLut q)[k.toInt.toNat], ?_, ?_⟩
  · rw [lutGet, if_neg h0, List.getElem?_eq_getElem hlt]
  · have := hk k.toInt.toNat _ (List.getElem?_eq_getElem hlt)
    rw [← natCast_zsmul] at this
    convert this using 2
    push_cast; simp

theorem nafTail_extend (naf : ℕ → Int8) (n i : ℕ) (h : naf (i + n) = 0) :
    nafTail naf (n + 1) i = nafTail naf n i := by
  induction n generalizing i with
  | zero => simp [nafTail] at *; rw [h]; rfl
  | succ n ih =>
    rw [nafTail, ih (i + 1) (by rw [← h]; congr 1; ring)]
    rfl

theorem nafTail_step (naf : ℕ → Int8) (hz : ∀ j, 256 ≤ j → naf j = 0) (i : ℕ) :
    nafTail naf 256 i = (naf i).toInt + 2 * nafTail naf 256 (i + 1) := by
  rw [nafTail_extend naf 255 i.succ (hz _ (by omega))]
  rfl

theorem nafSkip_spec (naf : ℕ → Int8) (hz : ∀ j, 256 ≤ j → naf j = 0) (P : EPoint) : ∀ (i : ℕ) (cp : ComplPt F),
    IsCp cp ((2 * nafTail naf 256 (i + 1)) • P) →
    (nafSkip naf i cp).1 ≤ i ∧
    IsCp (nafSkip naf i cp).2 ((2 * nafTail naf 256 ((nafSkip naf i cp).1 + 1)) • P) ∧
    (naf (nafSkip naf i cp).1 = 0 → (nafSkip naf i cp).1 = 0) := by
  intro i
  induction i with
  | zero => intro cp h; exact ⟨le_rfl, h, fun _ => rfl⟩
  | succ i ih =>
    intro cp h
    simp only [nafSkip]
    by_cases h0 : naf (i + 1) ≠ 0
    · rw [if_pos h0]; exact ⟨le_rfl, h, fun h' => absurd h' h0⟩
    · rw [if_neg h0]
      push Not at h0
      obtain ⟨a, b, c⟩ := ih (ComplPt.doubleProjective cp.toProjective) (by
        have := doubleProjective_spec (toProjective_spec h)
        rw [nafTail_step naf hz (i + 1), h0]
        convert this using 1
        rw [← add_zsmul]; congr 1
        have : (0 : Int8).toInt = 0 := rfl
        rw [this]; ring)
      exact ⟨by omega, b, c⟩

theorem varTimeLoop_spec {q : ExtPt F} {P : EPoint} (hq : IsPt q P) (naf : ℕ → Int8) (hok : NafOk naf)
    (hz : ∀ j, 256 ≤ j → naf j = 0) : ∀ (fuel i : ℕ) (p : ExtPt F), i < fuel → naf i ≠ 0 →
    IsPt p ((2 * nafTail naf 256 (i + 1)) • P) →
    ∃ r, varTimeLoop naf (varTimeLut q) fuel i p = some r ∧ IsPt r (nafTail naf 256 0 • P) := by
  intro fuel
  induction fuel with
  | zero => intro i p h; omega
  | succ fuel ih =>
    intro i p hi hne hp
    obtain ⟨ho, hl, hu⟩ := (hok i).resolve_left hne
    have hcp : ∃ cp, varTimeDigit (naf i) (varTimeLut q) p = some cp ∧
        IsCp cp (nafTail naf 256 i • P) := by
      rw [nafTail_step naf hz i]
      unfold varTimeDigit
      by_cases h : naf i > 0
      · rw [if_pos h]
        obtain ⟨a, b, c⟩ := lut_pos _ ho hl hu h
        obtain ⟨e, he, hpe⟩ := lutGet_spec hq _ a b
        refine ⟨ComplPt.addExtended p e, by rw [he]; rfl, ?_⟩
        convert addExtended_spec hp hpe using 1
        rw [c, ← add_zsmul]; congr 1; ring
      · rw [if_neg h]
        obtain ⟨a, b, c⟩ := lut_neg _ ho hl hu h
        obtain ⟨e, he, hpe⟩ := lutGet_spec hq _ a b
        refine ⟨ComplPt.subExtended p e, by rw [he]; rfl, ?_⟩
        convert subExtended_spec hp hpe using 1
        rw [c, neg_zsmul, sub_neg_eq_add, ← add_zsmul]; congr 1; ring
    obtain ⟨cp, hcp, hcpP⟩ := hcp
    unfold varTimeLoop
    rw [hcp]
    simp only [Option.bind_eq_bind, Option.bind_some]
    rcases i with _ | i
    · exact ⟨_, rfl, toExtended_spec hcpP⟩
    · simp only
      obtain ⟨a, b, c⟩ := nafSkip_spec naf hz P i (ComplPt.doubleProjective cp.toProjective) (by
        convert doubleProjective_spec (toProjective_spec hcpP) using 1
        rw [← add_zsmul]; congr 1; ring)
      generalize hsk : nafSkip naf i (ComplPt.doubleProjective cp.toProjective) = jc at *
      obtain ⟨j, cp'⟩ := jc
      simp only at a b c ⊢
      by_cases hj : naf j = 0
      · rw [if_pos hj]
        refine ⟨_, rfl, ?_⟩
        have := toExtended_spec b
        rw [c hj] at this hj
        rw [nafTail_step naf hz 0, hj]
        convert this using 2
        have : (0 : Int8).toInt = 0 := rfl
        rw [this]; ring
      · rw [if_neg hj]
        exact ih j _ (by omega) hj (toExtended_spec b)

theorem nafTop_none (naf : ℕ → Int8) : ∀ n, nafTop naf n = none → ∀ j, j < n → naf j = 0 := by
  intro n
  induction n with
  | zero => intro _ j hj; omega
  | succ n ih =>
    intro h j hj
    simp only [nafTop] at h
    split at h
    · cases h
    · rename_i h0
      push Not at h0
      by_cases hjn : j = n
      · rw [hjn]; exact h0
      · exact ih h j (by omega)

theorem nafTop_some (naf : ℕ → Int8) : ∀ n i, nafTop naf n = some i →
    i < n ∧ naf i ≠ 0 ∧ ∀ j, i < j → j < n → naf j = 0 := by
  intro n
  induction n with
  | zero => intro i h; cases h
  | succ n ih =>
    intro i h
    simp only [nafTop] at h
    split at h
    · rename_i h0
      cases h
      exact ⟨by omega, h0, fun j h1 h2 => by omega⟩
    · rename_i h0
      push Not at h0
      obtain ⟨a, b, c⟩ := ih i h
      refine ⟨by omega, b, fun j h1 h2 => ?_⟩
      by_cases hjn : j = n
      · rw [hjn]; exact h0
      · exact c j h1 (by omega)

/-- `VarTimeScalarMult` never panics and multiplies by the number its 32 bytes stand for. -/
theorem varTimeScalarMult_spec {q : ExtPt F} {P : EPoint} (hq : IsPt q P) (s : Bytes 32)
    (hs : leVal s < 2 ^ 255) : ∃ r, varTimeScalarMult q s = some r ∧ IsPt r (leVal s • P) := by
  obtain ⟨hv, hok, hz⟩ := computeScalar5NAF_spec s hs
  unfold varTimeScalarMult
  simp only
  generalize computeScalar5NAF s = naf at *
  rw [← natCast_zsmul, ← hv]
  cases h : nafTop naf 256 with
  | none =>
    refine ⟨_, rfl, ?_⟩
    have h0 := nafTop_none naf 256 h
    rw [nafTail_zero naf 256 0 (fun j _ => by
      by_cases hj : j < 256
      · exact h0 j hj
      · exact hz j (by omega)), zero_zsmul]
    exact zero_spec
  | some i =>
    obtain ⟨a, b, c⟩ := nafTop_some naf 256 i h
    refine varTimeLoop_spec hq naf hok hz (i + 1) i _ (by omega) b ?_
    rw [nafTail_zero naf 256 (i + 1) (fun j hj => by
      by_cases hj' : j < 256
      · exact c j (by omega) hj'
      · exact hz j (by omega))]
    simpa using zero_spec

end Ristretto.Proofs
