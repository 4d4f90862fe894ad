import Verif.Proofs.EdRange
import Verif.Spec.EdRange

/-!
# The multiple computed by the multiplications of package edwards25519, for every 32-byte scalar
-/

namespace Ristretto.Proofs.Ed
open Model FieldOps LawfulField Spec.EdRange
set_option autoImplicit false

variable {F : Type} [LawfulField F]

/-! ## Digits -/

theorem window5Sign_all (rest : List Int8) : ∀ (carry a : Int8), 0 ≤ carry.toInt →
    0 ≤ a.toInt → a.toInt + carry.toInt ≤ 32 → (∀ w ∈ rest, 0 ≤ w.toInt ∧ w.toInt ≤ 31) →
    ∃ ds t, window5Sign carry a rest = ds ++ [t] ∧ ds.length = rest.length ∧
      (∀ w ∈ ds, -16 ≤ w.toInt ∧ w.toInt ≤ 15) ∧ 0 ≤ t.toInt ∧ t.toInt ≤ 32 ∧
      digitsVal 32 (window5Sign carry a rest) = carry.toInt + digitsVal 32 (a :: rest) := by
  induction rest with
  | nil =>
    intro carry a hc ha hac _
    have e := int8_add (a := a) (b := carry) (by omega) (by omega)
    refine ⟨[], a + carry, rfl, rfl, by simp, by omega, by omega, ?_⟩
    simp only [window5Sign, digitsVal, e]
    ring
  | cons b rest ih =>
    intro carry a hc ha hac hr
    have e := int8_add (a := a) (b := carry) (by omega) (by omega)
    have hs := sign5_step (a + carry) (by omega) (by omega)
    simp only [window5Sign]
    generalize a + carry = x at *
    obtain ⟨h1, h2, h3, h4, h5, h6⟩ := hs
    obtain ⟨hb1, hb2⟩ := hr b (by simp)
    have eb := int8_add (a := b) (b := x >>> 5) (by omega) (by omega)
    obtain ⟨ds, t, r1, r2, r3, r4, r5, r6⟩ := ih ((x &&& 31) >>> 4) (b + (x >>> 5)) h2 (by omega) (by omega)
      (fun w hw => hr w (by simp [hw]))
    refine ⟨((x &&& (31 : Int8)) - (((x &&& (31 : Int8)) >>> 4) <<< 5)) :: ds, t, by rw [r1]; rfl, by simp [r2], ?_, r4, r5, ?_⟩
    · intro w hw
      rcases List.mem_cons.1 hw with h | h
      · subst h; omega
      · exact r3 w h
    · simp only [digitsVal] at r6 ⊢
      rw [r6, eb]
      linear_combination h4 + e

theorem window4Sign_all (rest : List Int8) : ∀ (carry a : Int8), 0 ≤ carry.toInt → carry.toInt ≤ 1 →
    0 ≤ a.toInt → a.toInt ≤ 15 → (∀ w ∈ rest, 0 ≤ w.toInt ∧ w.toInt ≤ 15) →
    ∃ ds t, window4Sign carry a rest = ds ++ [t] ∧ ds.length = rest.length ∧
      (∀ w ∈ ds, -8 ≤ w.toInt ∧ w.toInt ≤ 7) ∧ 0 ≤ t.toInt ∧ t.toInt ≤ 16 ∧
      digitsVal 16 (window4Sign carry a rest) = carry.toInt + digitsVal 16 (a :: rest) := by
  induction rest with
  | nil =>
    intro carry a hc hc1 ha hac _
    have e := int8_add (a := a) (b := carry) (by omega) (by omega)
    refine ⟨[], a + carry, rfl, rfl, by simp, by omega, by omega, ?_⟩
    simp only [window4Sign, digitsVal, e]
    ring
  | cons b rest ih =>
    intro carry a hc hc1 ha hac hr
    have e := int8_add (a := a) (b := carry) (by omega) (by omega)
    have hs := sign4_step (a + carry) (by omega) (by omega)
    simp only [window4Sign]
    generalize a + carry = x at *
    obtain ⟨h1, h2, h3, h4, h5⟩ := hs
    obtain ⟨hb1, hb2⟩ := hr b (by simp)
    obtain ⟨ds, t, r1, r2, r3, r4, r5, r6⟩ := ih ((x + 8) >>> 4) b h1 h2 hb1 hb2
      (fun w hw => hr w (by simp [hw]))
    refine ⟨(x - (((x + 8) >>> 4) <<< 4)) :: ds, t, by rw [r1]; rfl, by simp [r2], ?_, r4, r5, ?_⟩
    · intro w hw
      rcases List.mem_cons.1 hw with h | h
      · subst h; omega
      · exact r3 w h
    · simp only [digitsVal] at r6 ⊢
      rw [r6]
      linear_combination h3 + e

/-- The sum of a geometric series. -/
theorem geom (b k : ℕ) (hb : 2 ≤ b) : (b - 1) * ((b ^ k - 1) / (b - 1)) + 1 = b ^ k := by
  have h1 : 1 ≤ b ^ k := Nat.one_le_pow _ _ (by omega)
  have hd : b - 1 ∣ b ^ k - 1 := by simpa using Nat.sub_dvd_pow_sub_pow b 1 k
  rw [Nat.mul_div_cancel' hd]; omega

/-- `k` digits between `-c` and `c - 1` cover `(2c)^k` numbers. -/
theorem digitsVal_range (c : ℤ) (hc : 1 ≤ c) (ds : List Int8) (h : ∀ w ∈ ds, -c ≤ w.toInt ∧ w.toInt ≤ c - 1) :
    0 ≤ (2 * c - 1) * digitsVal (2 * c) ds + c * ((2 * c) ^ ds.length - 1) ∧
    (2 * c - 1) * digitsVal (2 * c) ds ≤ (c - 1) * ((2 * c) ^ ds.length - 1) := by
  induction ds with
  | nil => simp [digitsVal]
  | cons w ws ih =>
    obtain ⟨h1, h2⟩ := ih (fun w hw => h w (by simp [hw]))
    obtain ⟨h3, h4⟩ := h w (by simp)
    simp only [digitsVal, List.length_cons, pow_succ]
    generalize digitsVal (2 * c) ws = v at *
    generalize (2 * c) ^ ws.length = p at *
    constructor <;> nlinarith

theorem topDigit_eq (c k n : ℕ) (hc : 1 ≤ c) (ds : List Int8) (hk : ds.length = k) (t : Int8)
    (h : ∀ w ∈ ds, -(c : ℤ) ≤ w.toInt ∧ w.toInt ≤ c - 1) (ht : 0 ≤ t.toInt)
    (hv : digitsVal (2 * c) (ds ++ [t]) = n) : t.toInt = topDigit (2 * c) k n := by
  obtain ⟨r1, r2⟩ := digitsVal_range c (by omega) ds h
  rw [digitsVal_append, hk] at hv
  rw [hk] at r1 r2
  simp only [digitsVal, mul_zero, add_zero] at hv
  have hg := geom (2 * c) k (by omega)
  unfold topDigit
  rw [Nat.mul_div_cancel_left c (by norm_num)]
  generalize ((2 * c) ^ k - 1) / (2 * c - 1) = R at *
  have hgz : (2 * (c : ℤ) - 1) * R + 1 = (2 * (c : ℤ)) ^ k := by
    have : ((2 * c - 1 : ℕ) : ℤ) = 2 * (c : ℤ) - 1 := by omega
    rw [← this]; exact_mod_cast hg
  have hp : 0 < (2 * c) ^ k := Nat.pow_pos (by omega)
  have hpz : (((2 * c) ^ k : ℕ) : ℤ) = (2 * (c : ℤ)) ^ k := by push_cast; ring
  obtain ⟨T, hT⟩ := Int.eq_ofNat_of_zero_le ht
  rw [hT] at hv ⊢
  rw [← hgz] at r1 r2
  generalize digitsVal (2 * (c : ℤ)) ds = v at *
  have hc1 : (0 : ℤ) < 2 * c - 1 := by omega
  have a1 : 0 ≤ v + c * R := by
    have : 0 ≤ (2 * (c : ℤ) - 1) * (v + c * R) := by nlinarith
    exact nonneg_of_mul_nonneg_right this hc1
  have a2 : v + c * R ≤ (2 * (c : ℤ) - 1) * R := by
    have : (2 * (c : ℤ) - 1) * (v + c * R) ≤ (2 * (c : ℤ) - 1) * ((2 * (c : ℤ) - 1) * R) := by nlinarith
    exact le_of_mul_le_mul_left this hc1
  congr 1
  symm
  apply Nat.div_eq_of_lt_le
  · zify
    rw [← hv, ← hpz]
    push_cast
    nlinarith
  · zify
    rw [← hv, ← hgz]
    nlinarith

/-! ## `ExtendedPoint.ScalarMult` -/

theorem window5Raw_all (s : Bytes 32) : digitsVal 32 (window5Raw s) = (leVal s % 2 ^ 255 : ℕ) := by
  have h0 := s[31].toNat_lt
  have hl : digitsVal 32 [ i8 (s[30] &&& 31), i8 ((s[30] >>> 5) &&& 31) ^^^ i8 ((s[31] <<< 3) &&& 31),
      i8 ((s[31] >>> 2) &&& 31) ] = (s[30].toNat + 256 * (s[31].toNat % 128) : ℕ) := by
    have h1 := s[30].toNat_lt
    simp only [digitsVal, i8_shr2, xor53]
    rw [i8_and31]
    generalize s[30].toNat = a at *
    generalize s[31].toNat = b at *
    omega
  have hm : leVal s % 2 ^ 255 = leVal s - 2 ^ 255 * (s[31].toNat / 128) := by
    have hlo : leVal s - 2 ^ 248 * s[31].toNat < 2 ^ 248 ∧ 2 ^ 248 * s[31].toNat ≤ leVal s := by
      have h := leVal_32 s
      have h0 := s[0].toNat_lt
      have h1 := s[1].toNat_lt
      have h2 := s[2].toNat_lt
      have h3 := s[3].toNat_lt
      have h4 := s[4].toNat_lt
      have h5 := s[5].toNat_lt
      have h6 := s[6].toNat_lt
      have h7 := s[7].toNat_lt
      have h8 := s[8].toNat_lt
      have h9 := s[9].toNat_lt
      have h10 := s[10].toNat_lt
      have h11 := s[11].toNat_lt
      have h12 := s[12].toNat_lt
      have h13 := s[13].toNat_lt
      have h14 := s[14].toNat_lt
      have h15 := s[15].toNat_lt
      have h16 := s[16].toNat_lt
      have h17 := s[17].toNat_lt
      have h18 := s[18].toNat_lt
      have h19 := s[19].toNat_lt
      have h20 := s[20].toNat_lt
      have h21 := s[21].toNat_lt
      have h22 := s[22].toNat_lt
      have h23 := s[23].toNat_lt
      have h24 := s[24].toNat_lt
      have h25 := s[25].toNat_lt
      have h26 := s[26].toNat_lt
      have h27 := s[27].toNat_lt
      have h28 := s[28].toNat_lt
      have h29 := s[29].toNat_lt
      have h30 := s[30].toNat_lt
      simp only [Nat.reducePow] at *
      omega
    generalize s[31].toNat = x at *
    generalize leVal s = n at *
    simp only [Nat.reducePow] at *
    omega
  have hle : 2 ^ 255 * (s[31].toNat / 128) ≤ leVal s := by
    have : leVal s % 2 ^ 255 ≤ leVal s := Nat.mod_le _ _
    have h2 : 2 ^ 248 * s[31].toNat ≤ leVal s := by
      rw [leVal_32]; omega
    calc 2 ^ 255 * (s[31].toNat / 128) = 2 ^ 248 * (128 * (s[31].toNat / 128)) := by ring
      _ ≤ 2 ^ 248 * s[31].toNat := Nat.mul_le_mul_left _ (by omega)
      _ ≤ _ := h2
  rw [hm, Nat.cast_sub hle, leVal_32]
  unfold window5Raw
  simp only [digitsVal_append, List.length_append, chunk5_length, chunk5_val, hl]
  have e : ((s[31].toNat : ℕ) : ℤ) = 128 * ((s[31].toNat / 128 : ℕ) : ℤ) + ((s[31].toNat % 128 : ℕ) : ℤ) := by
    exact_mod_cast (Nat.div_add_mod _ _).symm
  push_cast at e ⊢
  generalize (s[31].toNat : ℤ) % 128 = r at *
  generalize (s[31].toNat : ℤ) / 128 = q at *
  linear_combination (-(2 : ℤ) ^ 248) * e

theorem window5_all (s : Bytes 32) : ∃ ds t, computeScalarWindow5 s = ds ++ [t] ∧ ds.length = 50 ∧
    (∀ w ∈ ds, -16 ≤ w.toInt ∧ w.toInt ≤ 15) ∧ t.toInt = ((topDigit 32 50 (leVal s % 2 ^ 255) : ℕ) : ℤ) ∧ t.toInt ≤ 32 ∧
    digitsVal 32 ds + 32 ^ 50 * t.toInt = ((leVal s % 2 ^ 255 : ℕ) : ℤ) := by
  have hv := window5Raw_all s
  have hr := window5Raw_range s
  have hlen : (window5Raw s).length = 51 := rfl
  unfold computeScalarWindow5
  generalize window5Raw s = W at *
  cases W with
  | nil => simp at hlen
  | cons a rest =>
    obtain ⟨ha, ha'⟩ := hr a (by simp)
    obtain ⟨ds, t, r1, r2, r3, r4, r5, r6⟩ := window5Sign_all rest 0 a (by decide) ha (by simp; omega)
      (fun w hw => hr w (by simp [hw]))
    have hl : ds.length = 50 := by simpa [r2] using hlen
    have hval : digitsVal 32 (ds ++ [t]) = (leVal s % 2 ^ 255 : ℕ) := by
      rw [← r1, r6, hv]; simp
    refine ⟨ds, t, r1, hl, r3, ?_, r5, ?_⟩
    · exact topDigit_eq 16 50 _ (by norm_num) ds hl t (by simpa using r3) r4 (by simpa using hval)
    · rw [← hval, digitsVal_append, hl]; simp [digitsVal]

theorem scalarMultSelect_big {q : ExtPt F} {P : EPoint} (hq : IsPt q P) (w : Int8) (h2 : 16 < w.toInt) :
    IsPt (scalarMultSelect (scalarMultLut q) w.toInt32) 0 := by
  unfold scalarMultSelect
  simp only
  have hl := scalarMultLut_spec hq
  have hlen' : (scalarMultLut q).tail.length = 16 := rfl
  have hloop := selectLoop15_spec P w (scalarMultLut q).tail 1 ((scalarMultLut q).headD ExtPt.zero)
    (by omega) (by
      intro k e he
      have := hl (k + 1) e (by simpa using he)
      rw [add_comm]; exact this) (by
      have : IsPt (ExtPt.zero : ExtPt F) (0 : EPoint) := zero_spec
      have e0 : (if w.toInt.natAbs < 1 then w.toInt.natAbs else 0) = 0 := by split <;> omega
      rw [e0, zero_nsmul]
      exact this)
  rw [hlen', if_neg (by omega), zero_nsmul] at hloop
  have h1' : Int32.ofNat 1 = 1 := rfl
  rw [h1'] at hloop
  have := condNeg_spec hloop (w.toInt < 0)
  rw [negative_spec]
  convert this using 1
  simp

theorem scalarMult_foldr_from {q p : ExtPt F} {P Q : EPoint} (hq : IsPt q P) (hp : IsPt p Q) (ws : List Int8)
    (h : ∀ w ∈ ws, -16 ≤ w.toInt ∧ w.toInt ≤ 16) :
    IsPt (ws.foldr (fun w p => scalarMultStep (scalarMultLut q) p w) p)
      (digitsVal 32 ws • P + (32 : ℤ) ^ ws.length • Q) := by
  induction ws with
  | nil => simpa [digitsVal] using hp
  | cons w ws ih =>
    obtain ⟨h1, h2⟩ := h w (by simp)
    have := scalarMultStep_spec hq (ih (fun w hw => h w (by simp [hw]))) w h1 h2
    simp only [List.foldr_cons, digitsVal, List.length_cons]
    convert this using 1
    rw [zsmul_add, ← mul_zsmul, ← mul_zsmul, add_zsmul, pow_succ', mul_comm ((32 : ℤ)) (digitsVal 32 ws)]
    abel

/-- `ScalarMult` multiplies by what its digits say, the top one counting as zero if it is too large. -/
theorem scalarMult_all {q : ExtPt F} {P : EPoint} (hq : IsPt q P) (s : Bytes 32) :
    IsPt (scalarMult q s)
      ((((leVal s % 2 ^ 255 : ℕ) : ℤ) - (lost 32 50 16 (leVal s % 2 ^ 255) : ℕ)) • P) := by
  obtain ⟨ds, t, h1, h2, h3, h4, h5, h6⟩ := window5_all s
  unfold scalarMult
  simp only
  rw [List.foldl_reverse, h1, List.foldr_append]
  have hds : ∀ w ∈ ds, -16 ≤ w.toInt ∧ w.toInt ≤ 16 := fun w hw => by have := h3 w hw; omega
  simp only [List.foldr_cons, List.foldr_nil]
  unfold lost
  by_cases h : topDigit 32 50 (leVal s % 2 ^ 255) ≤ 16
  · have hst := scalarMultStep_spec hq (zero_spec (F := F)) t (by omega) (by omega)
    have := scalarMult_foldr_from hq hst ds hds
    rw [if_pos h, ← h6]
    convert this using 1
    rw [h2, zsmul_zero, zero_add, ← mul_zsmul, ← add_zsmul]
    simp
  · have hst : IsPt (scalarMultStep (scalarMultLut q) ExtPt.zero t) ((32 : ℤ) • 0 + 0) :=
      add_spec (double5 zero_spec) (scalarMultSelect_big hq t (by omega))
    have := scalarMult_foldr_from hq hst ds hds
    rw [if_neg h, ← h6]
    convert this using 1
    rw [zsmul_zero, zero_add, zsmul_zero, add_zero]
    congr 1
    rw [Nat.cast_mul, ← h4]
    push_cast
    ring

/-! ## Multiplication with a table -/

theorem window4_all (s : Bytes 32) : ∃ ds t, computeScalarWindow4 s = ds ++ [t] ∧ ds.length = 63 ∧
    (∀ w ∈ ds, -8 ≤ w.toInt ∧ w.toInt ≤ 7) ∧ t.toInt = ((topDigit 16 63 (leVal s) : ℕ) : ℤ) ∧ t.toInt ≤ 16 ∧
    digitsVal 16 ds + 16 ^ 63 * t.toInt = (leVal s : ℤ) := by
  have hv : digitsVal 16 (window4Raw s) = leVal s := nibbles_val _
  have hr : ∀ w ∈ window4Raw s, 0 ≤ w.toInt ∧ w.toInt ≤ 15 := nibbles_range _
  have hlen : (window4Raw s).length = 64 := by
    have := nibbles_length s.toList
    simpa [window4Raw] using this
  unfold computeScalarWindow4
  generalize window4Raw s = W at *
  cases W with
  | nil => simp at hlen
  | cons a rest =>
    obtain ⟨ha, ha'⟩ := hr a (by simp)
    obtain ⟨ds, t, r1, r2, r3, r4, r5, r6⟩ := window4Sign_all rest 0 a (by decide) (by decide) ha ha'
      (fun w hw => hr w (by simp [hw]))
    have hl : ds.length = 63 := by simpa [r2] using hlen
    have hval : digitsVal 16 (ds ++ [t]) = (leVal s : ℤ) := by
      rw [← r1, r6, hv]; simp
    refine ⟨ds, t, r1, hl, r3, ?_, r5, ?_⟩
    · exact topDigit_eq 8 63 _ (by norm_num) ds hl t (by simpa using r3) r4 (by simpa using hval)
    · rw [← hval, digitsVal_append, hl]; simp [digitsVal]

theorem snoc_split {α : Type} (ds : List α) (t : α) : ∀ n, ds.length = 2 * n + 1 →
    evens (ds ++ [t]) = evens ds ∧ odds (ds ++ [t]) = odds ds ++ [t] ∧ (evens ds).length = n + 1 ∧
    (odds ds).length = n := by
  induction ds using evens.induct with
  | case1 a b rest ih =>
    intro n h
    simp only [List.length_cons] at h
    obtain ⟨h1, h2, h3, h4⟩ := ih (n - 1) (by omega)
    simp only [List.cons_append, evens, odds, h1, h2, List.length_cons, h3, h4]
    exact ⟨trivial, trivial, by omega, by omega⟩
  | case2 a => intro n h; simp at h; subst h; simp [evens, odds]
  | case3 => intro n h; simp at h

theorem selectPoint_big {row : List (NielsPt F)} (h : row.length = 8) (w : Int8) (h1 : 8 < w.toInt) (h2 : w.toInt ≤ 16) :
    selectPoint row w.toInt32 = NielsPt.zero := by
  have hc : ∀ (p q : NielsPt F), p.condSet q 0 = p := by
    intro p q
    have := nielsCondSet_spec (q := p) (r := q) False
    simpa [flag] using this
  have hw : ∀ w : Int8, 8 < w.toInt → w.toInt ≤ 16 → negative w.toInt32 = 0 ∧
      w.toInt32 - (((-(0 : Int32)) &&& w.toInt32) <<< 1) = w.toInt32 ∧
      ∀ i : Fin 8, equal30 w.toInt32 (Int32.ofNat i + 1) = 0 ∧ Int32.ofNat i + 1 = Int32.ofNat (i + 1) :=
    int8_forall (by decide +kernel)
  obtain ⟨e1, e2, he⟩ := hw w h1 h2
  have hl : ∀ (row : List (NielsPt F)) (i : ℕ) (p : NielsPt F), i + row.length ≤ 8 →
      selectLoop w.toInt32 (Int32.ofNat i) row p = p := by
    intro row
    induction row with
    | nil => intro i p _; rfl
    | cons e rest ih =>
      intro i p hi
      simp only [List.length_cons] at hi
      obtain ⟨e1, e2⟩ := he ⟨i, by omega⟩
      simp only at e1 e2
      rw [selectLoop, e1, hc, e2]
      exact ih (i + 1) p (by omega)
  unfold selectPoint
  simp only [e1]
  rw [e2]
  have := hl row 0 NielsPt.zero (by omega)
  rw [show Int32.ofNat 0 = (0 : Int32) from rfl] at this
  rw [this, hc]

/-- `ScalarMultTable.ScalarMult` multiplies by what its digits say, the top one counting as zero if it is too large. -/
theorem tableScalarMult_all {t : Table F} {P : EPoint} (ht : IsTable t P) (hs : ShapeT t) (s : Bytes 32) :
    IsPt (tableScalarMult t s) ((((leVal s : ℕ) : ℤ) - (lost 16 63 8 (leVal s) : ℕ)) • P) := by
  obtain ⟨ds, w, h1, h2, h3, h4, h5, h6⟩ := window4_all s
  obtain ⟨hl, hr⟩ := hs
  obtain ⟨s1, s2, s3, s4⟩ := snoc_split ds w 31 h2
  unfold tableScalarMult
  simp only [h1, s1, s2]
  have hds : ∀ w ∈ ds, -8 ≤ w.toInt ∧ w.toInt ≤ 8 := fun w hw => by have := h3 w hw; omega
  have hv := evens_odds_val ds
  unfold lost
  by_cases h : topDigit 16 63 (leVal s) ≤ 8
  · have a1 := tableAddLoop_spec t (odds ds ++ [w]) P 0 ExtPt.zero ht (by simp [hl, s4])
      (fun v hv => by
        rcases List.mem_append.1 hv with hv | hv
        · exact hds v (odds_mem _ v hv)
        · rw [List.mem_singleton.1 hv]; omega) zero_spec
    have a2 := tableAddLoop_spec t (evens ds) P _ _ ht (by rw [hl, s3])
      (fun v hv => hds v (evens_mem _ v hv)) (double4_spec a1)
    rw [if_pos h, ← h6]
    convert a2 using 1
    rw [digitsVal_append, s4, zero_add, ← mul_zsmul', ← add_zsmul, hv]
    congr 1
    simp only [digitsVal]
    push_cast
    ring
  · have hsel : ∀ row ∈ t, selectPoint row w.toInt32 = NielsPt.zero := fun row hrow =>
      selectPoint_big (hr row hrow) w (by omega) (by omega)
    have a1 : IsPt (tableAddLoop t (odds ds ++ [w]) ExtPt.zero) (digitsVal 256 (odds ds) • P) := by
      obtain ⟨rows, row, rfl⟩ := snoc_of_length hl
      have hrows : rows.length = 31 := by simpa using hl
      rw [tableAddLoop_append _ _ _ _ _ (by rw [hrows, s4]), hsel row (by simp)]
      have h := tableAddLoop_spec rows (odds ds) P 0 ExtPt.zero (isTable_left rows ht) (by rw [hrows, s4])
        (fun v hv => hds v (odds_mem _ v hv)) zero_spec
      have := toExtended_spec (addExtendedNiels_spec h nielsZero_spec)
      simpa using this
    have a2 := tableAddLoop_spec t (evens ds) P _ _ ht (by rw [hl, s3])
      (fun v hv => hds v (evens_mem _ v hv)) (double4_spec a1)
    rw [if_neg h, ← h6]
    convert a2 using 1
    rw [← mul_zsmul', ← add_zsmul, hv]
    congr 1
    rw [Nat.cast_mul, ← h4]
    push_cast
    ring

/-- `ScalarMultTable.VarTimeScalarMult` panics if the top digit is too large, whatever the table holds. -/
theorem tableVarTime_panic {t : Table F} (hs : ShapeT t) (s : Bytes 32) :
    8 < topDigit 16 63 (leVal s) → tableVarTimeScalarMult t s = none := by
  obtain ⟨ds, w, h1, h2, h3, h4, h5, h6⟩ := window4_all s
  obtain ⟨hl, hr⟩ := hs
  obtain ⟨s1, s2, s3, s4⟩ := snoc_split ds w 31 h2
  unfold tableVarTimeScalarMult
  simp only [h1, s1, s2]
  intro h
  have hw : ∀ w : Int8, 8 < w.toInt → w.toInt ≤ 16 → w.toInt32 ≠ 0 ∧ ¬ w.toInt32 < 0 ∧
      8 ≤ (w.toInt32 - 1).toInt.toNat := int8_forall (by decide +kernel)
  obtain ⟨w1, w2, w3⟩ := hw w (by omega) (by omega)
  have hz : ∀ (ws : List Int8) (rows : List (List (NielsPt F))) (row : List (NielsPt F)) (p : ExtPt F),
      row.length = 8 → rows.length = ws.length → tableVarTimeLoop (rows ++ [row]) (ws ++ [w]) p = none := by
    intro ws
    induction ws with
    | nil =>
      intro rows row p hrow hn
      rw [List.length_eq_zero_iff.1 hn]
      have e : varTimeSelectPoint row w.toInt32 = none := by
        unfold varTimeSelectPoint
        rw [if_neg w2]
        apply List.getElem?_eq_none
        rw [hrow]; exact w3
      simp only [List.nil_append, tableVarTimeLoop, e]
      rw [if_neg w1]
      rfl
    | cons v ws ih =>
      intro rows row p hrow hn
      obtain ⟨r, rows, rfl⟩ : ∃ r rs, rows = r :: rs := by
        cases rows with
        | nil => simp at hn
        | cons r rs => exact ⟨r, rs, rfl⟩
      have hn' : rows.length = ws.length := by simpa using hn
      simp only [List.cons_append, tableVarTimeLoop]
      split
      · exact ih rows row p hrow hn'
      · cases varTimeSelectPoint r v.toInt32 with
        | none => rfl
        | some np => exact ih rows row _ hrow hn'
  obtain ⟨rows, row, rfl⟩ := snoc_of_length hl
  rw [hz (odds ds) rows row _ (hr row (by simp)) (by rw [s4]; simpa using hl)]
  rfl

/-- It does not panic otherwise. -/
theorem tableVarTime_total {t : Table F} (hs : ShapeT t) (s : Bytes 32) (h : topDigit 16 63 (leVal s) ≤ 8) :
    ∃ r, tableVarTimeScalarMult t s = some r := by
  obtain ⟨ds, w, h1, h2, h3, h4, h5, h6⟩ := window4_all s
  obtain ⟨s1, s2, s3, s4⟩ := snoc_split ds w 31 h2
  unfold tableVarTimeScalarMult
  simp only [h1, s1, s2]
  have hds : ∀ w ∈ ds, -8 ≤ w.toInt ∧ w.toInt ≤ 8 := fun w hw => by have := h3 w hw; omega
  obtain ⟨p, e1⟩ := tableVarTimeLoop_total t (odds ds ++ [w]) ExtPt.zero hs.2 (fun v hv => by
    rcases List.mem_append.1 hv with hv | hv
    · exact hds v (odds_mem _ v hv)
    · rw [List.mem_singleton.1 hv]; omega)
  obtain ⟨r, e2⟩ := tableVarTimeLoop_total t (evens ds) (double4 p) hs.2 (fun v hv => hds v (evens_mem _ v hv))
  exact ⟨r, by simp only [e1, Option.bind_eq_bind, Option.bind_some, e2]⟩

/-- `ScalarMultTable.VarTimeScalarMult` multiplies if the top digit is small enough, and otherwise panics. -/
theorem tableVarTime_all {t : Table F} {P : EPoint} (ht : IsTable t P) (hs : ShapeT t) (s : Bytes 32) :
    (topDigit 16 63 (leVal s) ≤ 8 → ∃ r, tableVarTimeScalarMult t s = some r ∧ IsPt r (leVal s • P)) ∧
    (8 < topDigit 16 63 (leVal s) → tableVarTimeScalarMult t s = none) := by
  refine ⟨?_, tableVarTime_panic hs s⟩
  obtain ⟨ds, w, h1, h2, h3, h4, h5, h6⟩ := window4_all s
  obtain ⟨hl, hr⟩ := hs
  obtain ⟨s1, s2, s3, s4⟩ := snoc_split ds w 31 h2
  unfold tableVarTimeScalarMult
  simp only [h1, s1, s2]
  have hds : ∀ w ∈ ds, -8 ≤ w.toInt ∧ w.toInt ≤ 8 := fun w hw => by have := h3 w hw; omega
  have hv := evens_odds_val ds
  · intro h
    obtain ⟨r1, e1, a1⟩ := tableVarTimeLoop_spec t (odds ds ++ [w]) P 0 ExtPt.zero ht (by simp [hl, s4])
      (fun v hv => by
        rcases List.mem_append.1 hv with hv | hv
        · exact hds v (odds_mem _ v hv)
        · rw [List.mem_singleton.1 hv]; omega) zero_spec
    obtain ⟨r2, e2, a2⟩ := tableVarTimeLoop_spec t (evens ds) P _ _ ht (by rw [hl, s3])
      (fun v hv => hds v (evens_mem _ v hv)) (double4_spec a1)
    refine ⟨r2, by simp only [e1, Option.bind_eq_bind, Option.bind_some, e2], ?_⟩
    rw [← natCast_zsmul, ← h6]
    convert a2 using 1
    rw [digitsVal_append, s4, zero_add, ← mul_zsmul', ← add_zsmul, hv]
    congr 1
    simp only [digitsVal]
    ring

/-! ## `ExtendedPoint.VarTimeScalarMult` -/

theorem nafLoop_all (s : Bytes 32) : ∀ (fuel pos : ℕ) (carry : UInt64)
    (naf : ℕ → Int8), 256 ≤ pos + fuel → carry.toNat ≤ 1 → (carry.toNat = 1 → pos ≤ 256) →
    (∀ j, pos ≤ j → naf j = 0) → (∀ j, 256 ≤ j → naf j = 0) → NafOk naf →
    nafTail naf 256 0 + ((carry.toNat : ℤ) + (leVal s / 2 ^ pos : ℕ)) * 2 ^ pos = leVal s →
    nafTail (nafLoop (nafWord s) fuel pos carry naf) 256 0 =
      leVal s - 2 ^ 256 * (carryOut (256 - pos) (carry.toNat + leVal s / 2 ^ pos) : ℕ) ∧
    NafOk (nafLoop (nafWord s) fuel pos carry naf) ∧
    (∀ j, 256 ≤ j → nafLoop (nafWord s) fuel pos carry naf j = 0) := by
  have hs : leVal s < 2 ^ 256 := by
    have := leVal_lt s
    calc leVal s < 256 ^ 32 := this
      _ = 2 ^ 256 := by norm_num
  have done : ∀ (pos : ℕ) (carry : UInt64) (naf : ℕ → Int8), 256 ≤ pos → carry.toNat ≤ 1 →
      (carry.toNat = 1 → pos ≤ 256) →
      nafTail naf 256 0 + ((carry.toNat : ℤ) + (leVal s / 2 ^ pos : ℕ)) * 2 ^ pos = leVal s →
      nafTail naf 256 0 = leVal s - 2 ^ 256 * (carryOut (256 - pos) (carry.toNat + leVal s / 2 ^ pos) : ℕ) := by
    intro pos carry naf hp hc1 hc2 hv
    have h0 : leVal s / 2 ^ pos = 0 := Nat.div_eq_of_lt (lt_of_lt_of_le hs (Nat.pow_le_pow_right (by norm_num) (by omega)))
    rw [show 256 - pos = 0 by omega, carryOut, if_pos rfl]
    rw [h0] at hv ⊢
    rcases Nat.le_one_iff_eq_zero_or_eq_one.1 hc1 with hc | hc
    · rw [hc] at hv ⊢; simpa using hv
    · have : pos = 256 := by have := hc2 hc; omega
      subst this
      rw [hc] at hv ⊢
      rw [← hv]
      push_cast
      ring
  intro fuel
  induction fuel with
  | zero =>
    intro pos carry naf hf hc1 hc2 h0 hz hok hv
    exact ⟨done pos carry naf (by omega) hc1 hc2 hv, hok, hz⟩
  | succ fuel ih =>
    intro pos carry naf hf hc1 hc2 h0 hz hok hv
    simp only [nafLoop]
    by_cases hp : pos < 256
    · rw [if_pos hp]
      have hbits := nafBits_spec s pos
      generalize hb : nafBits (nafWord s) pos &&& 31 = b at *
      have hdiv : leVal s / 2 ^ pos = leVal s / 2 ^ pos / 32 * 32 + b.toNat := by omega
      have hd5 : leVal s / 2 ^ pos / 32 = leVal s / 2 ^ (pos + 5) := by
        rw [Nat.div_div_eq_div_mul, pow_add]; norm_num
      have hd1 : leVal s / 2 ^ pos / 2 = leVal s / 2 ^ (pos + 1) := by
        rw [Nat.div_div_eq_div_mul, pow_add, pow_one]
      have hb32 : b.toNat < 32 := by omega
      have hw : (carry + b).toNat = carry.toNat + b.toNat := by
        rw [UInt64.toNat_add]; apply Nat.mod_eq_of_lt; omega
      generalize hwin : carry + b = win at *
      have hand : (win &&& 1 == 0) = decide (win.toNat % 2 = 0) := by
        have h1 : (win &&& 1).toNat = win.toNat % 2 := by
          rw [UInt64.toNat_and, show (1 : UInt64).toNat = 2 ^ 1 - 1 from rfl, Nat.and_two_pow_sub_one_eq_mod]
        have : (win &&& 1 = 0) ↔ win.toNat % 2 = 0 := by
          rw [← h1, ← UInt64.toNat_inj]; rfl
        rw [Bool.eq_iff_iff]; simp [this]
      rw [hand]
      have htop : ∀ k, 256 ≤ k → leVal s / 2 ^ k = 0 := fun k hk =>
        Nat.div_eq_of_lt (lt_of_lt_of_le hs (Nat.pow_le_pow_right (by norm_num) hk))
      rw [carryOut, if_neg (show ¬ (256 - pos = 0) by omega)]
      by_cases he : win.toNat % 2 = 0
      · rw [if_pos (by simpa using he), if_pos (show (carry.toNat + leVal s / 2 ^ pos) % 2 = 0 by omega),
          show (carry.toNat + leVal s / 2 ^ pos) / 2 = carry.toNat + leVal s / 2 ^ pos / 2 by omega, hd1,
          show 256 - pos - 1 = 256 - (pos + 1) by omega]
        apply ih (pos + 1) carry naf (by omega) hc1 (by omega) (fun j hj => h0 j (by omega)) hz hok
        rw [← hv, ← hd1]
        have : (leVal s / 2 ^ pos : ℕ) + carry.toNat = 2 * (leVal s / 2 ^ pos / 2 + carry.toNat) := by
          omega
        have e : (((leVal s / 2 ^ pos : ℕ) : ℤ) + (carry.toNat : ℤ)) = 2 * (((leVal s / 2 ^ pos / 2 : ℕ) : ℤ) + (carry.toNat : ℤ)) := by
          exact_mod_cast this
        rw [pow_succ]
        linear_combination (-(2 : ℤ) ^ pos) * e
      · have hwo : win.toNat % 2 = 1 := by omega
        have hw32 : win.toNat < 32 := by omega
        have hwof : win = UInt64.ofNat win.toNat := by simp
        have hlt : (win < 16) ↔ win.toNat < 16 := UInt64.lt_iff_toNat_lt
        have hpos0 := h0 pos le_rfl
        have hm32 : (carry.toNat + leVal s / 2 ^ pos) % 32 = win.toNat := by omega
        have hdv : (carry.toNat + leVal s / 2 ^ pos) / 32 = leVal s / 2 ^ (pos + 5) := by omega
        rw [if_neg (by simpa using he), if_neg (show ¬ (carry.toNat + leVal s / 2 ^ pos) % 2 = 0 by omega), hm32, hdv,
          show 256 - pos - 5 = 256 - (pos + 5) by omega]
        by_cases h16 : win.toNat < 16
        · rw [if_pos (hlt.2 h16), if_pos h16]
          have hval : (win.toUInt8.toInt8).toInt = win.toNat := by
            have := window_small ⟨win.toNat, hw32⟩ hwo h16
            rw [hwof]; simpa using this
          have := ih (pos + 5) 0 (nafSet naf pos win.toUInt8.toInt8) (by omega) (by decide) (by simp)
            (fun j hj => by rw [nafSet, if_neg (by omega)]; exact h0 j (by omega))
            (fun j hj => by rw [nafSet, if_neg (by omega)]; exact hz j hj)
            (nafSet_ok hok (by rw [hval]; omega)) (by
              rw [nafTail_set _ _ _ hpos0 _ _ (by omega) (by omega), hval, ← hv, ← hd5, hw]
              have : ((leVal s / 2 ^ pos : ℕ) : ℤ) = (leVal s / 2 ^ pos / 32 : ℕ) * 32 + b.toNat := by exact_mod_cast hdiv
              simp only [Nat.sub_zero, pow_add]
              push_cast at this ⊢
              linear_combination (-(2 : ℤ) ^ pos) * this)
          rw [show (0 : UInt64).toNat = 0 from rfl, zero_add] at this
          exact this
        · rw [if_neg (fun h => h16 (hlt.1 h)), if_neg h16]
          have hval : (win.toUInt8.toInt8 - 32).toInt = (win.toNat : ℤ) - 32 := by
            have := window_big ⟨win.toNat, hw32⟩ hwo (by simpa using h16)
            rw [hwof]; simpa using this
          have := ih (pos + 5) 1 (nafSet naf pos (win.toUInt8.toInt8 - 32)) (by omega) (by decide) (by
              intro _
              by_contra hcon
              have h4 : leVal s / 2 ^ (pos + 4) = 0 := htop _ (by omega)
              have : leVal s / 2 ^ pos / 16 = leVal s / 2 ^ (pos + 4) := by
                rw [Nat.div_div_eq_div_mul, pow_add]; norm_num
              omega)
            (fun j hj => by rw [nafSet, if_neg (by omega)]; exact h0 j (by omega))
            (fun j hj => by rw [nafSet, if_neg (by omega)]; exact hz j hj)
            (nafSet_ok hok (by rw [hval]; omega)) (by
              rw [nafTail_set _ _ _ hpos0 _ _ (by omega) (by omega), hval, ← hv, ← hd5, hw]
              have : ((leVal s / 2 ^ pos : ℕ) : ℤ) = (leVal s / 2 ^ pos / 32 : ℕ) * 32 + b.toNat := by exact_mod_cast hdiv
              have h1 : ((1 : UInt64).toNat : ℤ) = 1 := rfl
              rw [h1]
              simp only [Nat.sub_zero, pow_add]
              push_cast at this ⊢
              linear_combination (-(2 : ℤ) ^ pos) * this)
          rw [show (1 : UInt64).toNat = 1 from rfl, Nat.add_comm 1] at this
          exact this
    · rw [if_neg hp]
      exact ⟨done pos carry naf (by omega) hc1 hc2 hv, hok, hz⟩

theorem computeScalar5NAF_all (s : Bytes 32) :
    nafTail (computeScalar5NAF s) 256 0 = (leVal s : ℤ) - 2 ^ 256 * (carryOut 256 (leVal s) : ℕ) ∧
    NafOk (computeScalar5NAF s) ∧ (∀ j, 256 ≤ j → computeScalar5NAF s j = 0) := by
  have := nafLoop_all s 256 0 0 (fun _ => 0) (by norm_num) (by decide) (by simp) (by simp) (by simp)
    (fun i => Or.inl rfl) (by rw [nafTail_zero _ _ _ (by simp)]; simp)
  rw [show (0 : UInt64).toNat = 0 from rfl, zero_add, pow_zero, Nat.div_one] at this
  exact this

/-- `VarTimeScalarMult` never panics, whatever the coordinates. -/
theorem varTime_total (q : ExtPt F) (s : Bytes 32) : ∃ r, varTimeScalarMult q s = some r := by
  obtain ⟨-, hok, -⟩ := computeScalar5NAF_all s
  unfold varTimeScalarMult
  simp only
  cases h : nafTop (computeScalar5NAF s) 256 with
  | none => exact ⟨_, rfl⟩
  | some i => exact varTimeLoop_total q _ hok (i + 1) i _ (by omega) (nafTop_some _ _ _ h).2.1

/-- `VarTimeScalarMult` never panics; it loses the carry out of the last place. -/
theorem varTimeScalarMult_all {q : ExtPt F} {P : EPoint} (hq : IsPt q P) (s : Bytes 32) :
    ∃ r, varTimeScalarMult q s = some r ∧
      IsPt r (((leVal s : ℤ) - 2 ^ 256 * (carryOut 256 (leVal s) : ℕ)) • P) := by
  obtain ⟨hv, hok, hz⟩ := computeScalar5NAF_all s
  unfold varTimeScalarMult
  simp only
  generalize computeScalar5NAF s = naf at *
  rw [← hv]
  cases h : nafTop naf 256 with
  | none =>
    refine ⟨_, rfl, ?_⟩
    have h0 := nafTop_none naf 256 h
    rw [nafTail_zero naf 256 0 (fun j _ => by
      by_cases hj : j < 256
      · exact h0 j hj
      · exact hz j (by omega)), zero_zsmul]
    exact zero_spec
  | some i =>
    obtain ⟨a, b, c⟩ := nafTop_some naf 256 i h
    refine varTimeLoop_spec hq naf hok hz (i + 1) i _ (by omega) b ?_
    rw [nafTail_zero naf 256 (i + 1) (fun j hj => by
      by_cases hj' : j < 256
      · exact c j (by omega) hj'
      · exact hz j (by omega))]
    simpa using zero_spec

/-! ## When nothing is lost -/

theorem topDigit5_le (n : ℕ) : topDigit 32 50 n ≤ 16 ↔ n < 17 * 32 ^ 50 - 16 * ((32 ^ 50 - 1) / 31) := by
  unfold topDigit
  norm_num
  omega

theorem topDigit4_le (n : ℕ) : topDigit 16 63 n ≤ 8 ↔ n < 9 * 16 ^ 63 - 8 * ((16 ^ 63 - 1) / 15) := by
  unfold topDigit
  norm_num
  omega

theorem topDigit5_max (n : ℕ) (h : n < 2 ^ 255) : topDigit 32 50 n ≤ 32 := by
  unfold topDigit
  norm_num at *
  omega

theorem topDigit4_max (n : ℕ) (h : n < 2 ^ 256) : topDigit 16 63 n ≤ 16 := by
  unfold topDigit
  norm_num at *
  omega

/-- At most one is carried. -/
theorem carryOut_le_one (k : ℕ) : ∀ r, r ≤ 2 ^ k → carryOut k r ≤ 1 := by
  induction k using Nat.strong_induction_on with
  | _ k ih =>
    intro r hr
    rw [carryOut]
    by_cases h0 : k = 0
    · rw [if_pos h0]; subst h0; simpa using hr
    rw [if_neg h0]
    obtain ⟨j, rfl⟩ : ∃ j, k = j + 1 := ⟨k - 1, by omega⟩
    have hj : 2 ^ (j + 1) = 2 * 2 ^ j := by rw [pow_succ]; ring
    split
    · exact ih _ (by omega) _ (by rw [Nat.add_sub_cancel]; omega)
    · by_cases h5 : 5 ≤ j + 1
      · obtain ⟨i, hi⟩ : ∃ i, j + 1 = i + 5 := ⟨j + 1 - 5, by omega⟩
        rw [hi] at hr ⊢
        rw [Nat.add_sub_cancel]
        have hp : 2 ^ (i + 5) = 32 * 2 ^ i := by rw [pow_add]; ring
        split
        · exact ih i (by omega) _ (by omega)
        · exact ih i (by omega) _ (by omega)
      · have h16 : 2 ^ (j + 1) ≤ 2 ^ 4 := Nat.pow_le_pow_right (by norm_num) (by omega)
        rw [if_pos (by omega)]
        exact ih _ (by omega) _ (by
          rw [show r / 32 = 0 by omega]; exact Nat.zero_le _)

/-- Nothing is carried out of a number that leaves the last place free. -/
theorem carryOut_zero (k : ℕ) : ∀ r, 2 * r ≤ 2 ^ k → carryOut k r = 0 := by
  induction k using Nat.strong_induction_on with
  | _ k ih =>
    intro r hr
    rw [carryOut]
    by_cases h0 : k = 0
    · rw [if_pos h0]; subst h0; simp at hr; omega
    rw [if_neg h0]
    obtain ⟨j, rfl⟩ : ∃ j, k = j + 1 := ⟨k - 1, by omega⟩
    have hj : 2 ^ (j + 1) = 2 * 2 ^ j := by rw [pow_succ]; ring
    split
    · exact ih _ (by omega) _ (by rw [Nat.add_sub_cancel]; omega)
    · by_cases h5 : 5 ≤ j + 1
      · obtain ⟨i, hi⟩ : ∃ i, j + 1 = i + 5 := ⟨j + 1 - 5, by omega⟩
        rw [hi] at hr ⊢
        rw [Nat.add_sub_cancel]
        have hp : 2 ^ (i + 5) = 32 * 2 ^ i := by rw [pow_add]; ring
        split
        · exact ih i (by omega) _ (by omega)
        · exact ih i (by omega) _ (by
            rcases i with _ | i
            · simp at *; omega
            · have : 2 ^ (i + 1) = 2 * 2 ^ i := by rw [pow_succ]; ring
              omega)
      · have h16 : 2 ^ (j + 1) ≤ 2 ^ 4 := Nat.pow_le_pow_right (by norm_num) (by omega)
        rw [if_pos (by omega)]
        exact ih _ (by omega) _ (by rw [show r / 32 = 0 by omega]; exact Nat.zero_le _)

end Ristretto.Proofs.Ed
