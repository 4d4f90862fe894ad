import Verif.Proofs.Hex
import Verif.Model.Api
import Mathlib.Tactic.Ring
import Mathlib.Tactic.Set
import Mathlib.Tactic.LinearCombination

/-!
# Base64 as positional notation
-/

namespace Ristretto.Proofs
open Model
set_option autoImplicit false

theorem b64Dig_lt {c : UInt8} {v : ℕ} (h : B64Dig c v) : v < 64 := by unfold B64Dig at h; omega

theorem b64Dig_iff : ∀ c : UInt8, ∀ v : ℕ, v < 64 → (B64Dig c v ↔ b64Digit c = some (UInt8.ofNat v)) := by
  unfold B64Dig
  exact uint8_forall (by decide +kernel)

theorem b64Digit_lt : ∀ c : UInt8, ∀ w, b64Digit c = some w → w.toNat < 64 := by
  have : ∀ c : UInt8, ((b64Digit c).map fun w => decide (w.toNat < 64)).getD true = true := uint8_forall (by decide +kernel)
  intro c w h
  have := this c
  rw [h] at this
  simpa using this

/-- The digit a character stands for. -/
theorem b64Dig_digit {c : UInt8} {v : ℕ} : B64Dig c v ↔ ∃ w, b64Digit c = some w ∧ w.toNat = v := by
  constructor
  · intro h
    have hv := b64Dig_lt h
    refine ⟨_, (b64Dig_iff c v hv).1 h, ?_⟩
    simp; omega
  · rintro ⟨w, h, rfl⟩
    refine (b64Dig_iff c _ (b64Digit_lt c w h)).2 ?_
    rw [h, UInt8.ofNat_toNat]

theorem bigEndian_lt {b : ℕ} (hb : 0 < b) : ∀ ds : List ℕ, (∀ d ∈ ds, d < b) → bigEndian b ds < b ^ ds.length
  | [], _ => by simp [bigEndian]
  | d :: ds, h => by
    have h1 := bigEndian_lt hb ds fun e he => h e (List.mem_cons_of_mem _ he)
    have h2 : d + 1 ≤ b := h d List.mem_cons_self
    have h3 := Nat.mul_le_mul_right (b ^ ds.length) h2
    simp only [bigEndian, List.length_cons, pow_succ]
    nlinarith

theorem bytes_lt (bs : List UInt8) : bigEndian 256 (bs.map UInt8.toNat) < 256 ^ bs.length := by
  have := bigEndian_lt (b := 256) (by norm_num) (bs.map UInt8.toNat) (by
    intro d hd
    obtain ⟨x, -, rfl⟩ := List.mem_map.1 hd
    exact x.toNat_lt)
  rwa [List.length_map] at this

theorem digitsOf_length {cs : List UInt8} {vs : List ℕ} (h : DigitsOf cs vs) : cs.length = vs.length := by
  induction h with
  | nil => rfl
  | cons _ _ ih => simp [ih]

theorem digitsOf_lt {cs : List UInt8} {vs : List ℕ} (h : DigitsOf cs vs) : ∀ d ∈ vs, d < 64 := by
  induction h with
  | nil => simp
  | cons h _ ih =>
    intro d hd
    rcases List.mem_cons.1 hd with rfl | hd
    · exact b64Dig_lt h
    · exact ih d hd

theorem bytes_inj : ∀ {a b : List UInt8}, a.length = b.length →
    bigEndian 256 (a.map UInt8.toNat) = bigEndian 256 (b.map UInt8.toNat) → a = b
  | [], [], _, _ => rfl
  | [], _ :: _, h, _ => by simp at h
  | _ :: _, [], h, _ => by simp at h
  | x :: a, y :: b, hl, h => by
    have hl' : a.length = b.length := by simpa using hl
    have ha := bytes_lt a
    have hb := bytes_lt b
    simp only [List.map_cons, bigEndian, List.length_map, hl'] at h
    rw [hl'] at ha
    have hd : x.toNat = y.toNat := by
      have h1 : (x.toNat * 256 ^ b.length + bigEndian 256 (a.map UInt8.toNat)) / 256 ^ b.length = x.toNat := by
        rw [mul_comm, Nat.mul_add_div (by positivity), Nat.div_eq_of_lt ha, add_zero]
      have h2 : (y.toNat * 256 ^ b.length + bigEndian 256 (b.map UInt8.toNat)) / 256 ^ b.length = y.toNat := by
        rw [mul_comm, Nat.mul_add_div (by positivity), Nat.div_eq_of_lt hb, add_zero]
      rw [← h1, h, h2]
    rw [hd] at h
    rw [UInt8.toNat_inj.1 hd, bytes_inj hl' (Nat.add_left_cancel h)]

theorem q0 : ∀ x y : UInt8, x.toNat < 64 → y.toNat < 64 → ((x <<< 2) ||| (y >>> 4)).toNat = 4 * x.toNat + y.toNat / 16 := by
  intro x y hx hy
  exact lt_forall (n := 64) (by norm_num)
    (P := fun x => ∀ y : UInt8, y.toNat < 64 → ((x <<< 2) ||| (y >>> 4)).toNat = 4 * x.toNat + y.toNat / 16)
    (fun i => lt_forall (by norm_num) (by revert i; decide +kernel)) x hx y hy

theorem q1 : ∀ x y : UInt8, x.toNat < 64 → y.toNat < 64 →
    ((x <<< 4) ||| (y >>> 2)).toNat = 16 * (x.toNat % 16) + y.toNat / 4 := by
  intro x y hx hy
  exact lt_forall (n := 64) (by norm_num)
    (P := fun x => ∀ y : UInt8, y.toNat < 64 → ((x <<< 4) ||| (y >>> 2)).toNat = 16 * (x.toNat % 16) + y.toNat / 4)
    (fun i => lt_forall (by norm_num) (by revert i; decide +kernel)) x hx y hy

theorem q2 : ∀ x y : UInt8, x.toNat < 64 → y.toNat < 64 →
    ((x <<< 6) ||| y).toNat = 64 * (x.toNat % 4) + y.toNat := by
  intro x y hx hy
  exact lt_forall (n := 64) (by norm_num)
    (P := fun x => ∀ y : UInt8, y.toNat < 64 → ((x <<< 6) ||| y).toNat = 64 * (x.toNat % 4) + y.toNat)
    (fun i => lt_forall (by norm_num) (by revert i; decide +kernel)) x hx y hy

/-- The digits `ds` stand for the bytes `bs`. -/
def Stand (ds : List ℕ) (bs : List UInt8) : Prop :=
  ds.length % 4 ≠ 1 ∧ bs.length = 6 * ds.length / 8 ∧
    bigEndian 256 (bs.map UInt8.toNat) = bigEndian 64 ds / 2 ^ (6 * ds.length % 8)

theorem Stand.inj {ds : List ℕ} {a b : List UInt8} (ha : Stand ds a) (hb : Stand ds b) : a = b :=
  bytes_inj (ha.2.1.trans hb.2.1.symm) (ha.2.2.trans hb.2.2.symm)

theorem stand_nil : Stand [] [] := ⟨by decide, rfl, rfl⟩

theorem stand_two (x y : UInt8) (hx : x.toNat < 64) (hy : y.toNat < 64) :
    Stand [x.toNat, y.toNat] (quantumBytes [x, y]) := by
  refine ⟨by simp, by simp [quantumBytes], ?_⟩
  simp only [quantumBytes, List.map_cons, List.map_nil, bigEndian, List.length_cons, List.length_nil, q0 x y hx hy]
  simp only [Nat.reduceAdd, Nat.reduceMul, Nat.reduceMod, Nat.reducePow]
  omega

theorem stand_three (x y z : UInt8) (hx : x.toNat < 64) (hy : y.toNat < 64) (hz : z.toNat < 64) :
    Stand [x.toNat, y.toNat, z.toNat] (quantumBytes [x, y, z]) := by
  refine ⟨by simp, by simp [quantumBytes], ?_⟩
  simp only [quantumBytes, List.map_cons, List.map_nil, bigEndian, List.length_cons, List.length_nil, q0 x y hx hy,
    q1 y z hy hz]
  simp only [Nat.reduceAdd, Nat.reduceMul, Nat.reduceMod, Nat.reducePow]
  omega

theorem stand_four (x y z w : UInt8) (hx : x.toNat < 64) (hy : y.toNat < 64) (hz : z.toNat < 64) (hw : w.toNat < 64)
    {ds : List ℕ} {bs : List UInt8} (h : Stand ds bs) :
    Stand (x.toNat :: y.toNat :: z.toNat :: w.toNat :: ds) (quantumBytes [x, y, z, w] ++ bs) := by
  obtain ⟨h1, h2, h3⟩ := h
  have hb : ((quantumBytes [x, y, z, w]).map UInt8.toNat) =
      [4 * x.toNat + y.toNat / 16, 16 * (y.toNat % 16) + z.toNat / 4, 64 * (z.toNat % 4) + w.toNat] := by
    simp only [quantumBytes, List.map_cons, List.map_nil, q0 x y hx hy, q1 y z hy hz, q2 z w hz hw]
  have hq : (quantumBytes [x, y, z, w]).length = 3 := rfl
  refine ⟨by simp only [List.length_cons]; omega, by simp only [hq, List.length_append, List.length_cons]; omega, ?_⟩
  rw [List.map_append, hb]
  simp only [List.cons_append, List.nil_append, bigEndian, List.length_cons, List.length_map]
  set k := 6 * ds.length % 8 with hk
  have hk' : 6 * (ds.length + 1 + 1 + 1 + 1) % 8 = k := by omega
  rw [hk', h3]
  have hpow : (64 : ℕ) ^ ds.length = 256 ^ bs.length * 2 ^ k := by
    have e1 : (64 : ℕ) ^ ds.length = 2 ^ (6 * ds.length) := by rw [pow_mul]; norm_num
    have e2 : (256 : ℕ) ^ bs.length = 2 ^ (8 * bs.length) := by rw [pow_mul]; norm_num
    rw [e1, e2, ← pow_add]
    congr 1
    omega
  have hall : x.toNat * 64 ^ (ds.length + 1 + 1 + 1) + (y.toNat * 64 ^ (ds.length + 1 + 1) +
      (z.toNat * 64 ^ (ds.length + 1) + (w.toNat * 64 ^ ds.length + bigEndian 64 ds))) =
      2 ^ k * (256 ^ bs.length * (x.toNat * 262144 + y.toNat * 4096 + z.toNat * 64 + w.toNat)) + bigEndian 64 ds := by
    simp only [pow_succ, hpow]
    ring
  rw [hall, Nat.mul_add_div (by positivity), ← add_assoc, ← add_assoc]
  congr 1
  have : (4 * x.toNat + y.toNat / 16) * 65536 + (16 * (y.toNat % 16) + z.toNat / 4) * 256 +
      (64 * (z.toNat % 4) + w.toNat) = x.toNat * 262144 + y.toNat * 4096 + z.toNat * 64 + w.toNat := by omega
  rw [← this]
  simp only [pow_succ]
  ring

theorem digitsOf_cons {c : UInt8} {cs : List UInt8} {ds : List ℕ} :
    DigitsOf (c :: cs) ds ↔ ∃ w vs, b64Digit c = some w ∧ DigitsOf cs vs ∧ ds = w.toNat :: vs := by
  constructor
  · intro h
    cases h with
    | cons h hs =>
      obtain ⟨w, h1, h2⟩ := b64Dig_digit.1 h
      exact ⟨w, _, h1, hs, by rw [h2]⟩
  · rintro ⟨w, vs, h1, h2, rfl⟩
    exact .cons (b64Dig_digit.2 ⟨w, h1, rfl⟩) h2

theorem digitsOf_nil {ds : List ℕ} : DigitsOf [] ds ↔ ds = [] := by
  constructor
  · intro h; cases h; rfl
  · rintro rfl; exact .nil

theorem digitsOf_inj {cs : List UInt8} {a b : List ℕ} (ha : DigitsOf cs a) (hb : DigitsOf cs b) : a = b := by
  induction cs generalizing a b with
  | nil => rw [digitsOf_nil.1 ha, digitsOf_nil.1 hb]
  | cons c cs ih =>
    obtain ⟨w, vs, h1, h2, rfl⟩ := digitsOf_cons.1 ha
    obtain ⟨w', vs', h1', h2', rfl⟩ := digitsOf_cons.1 hb
    rw [h1] at h1'
    cases h1'
    rw [ih h2 h2']

/-- `b64Plain` accepts exactly the digits of bytes there is room for. -/
theorem b64Plain_ok_iff (cap : ℕ) : ∀ (n : ℕ) (l out r : List UInt8), l.length ≤ n → out.length ≤ cap →
    (b64Plain cap l out = .ok r ↔ ∃ ds bs, DigitsOf l ds ∧ Stand ds bs ∧ r = out ++ bs ∧ r.length ≤ cap) := by
  intro n
  induction n with
  | zero =>
    intro l out r h ho
    have : l = [] := by simpa using h
    subst this
    simp only [b64Plain, Res.ok.injEq, digitsOf_nil]
    constructor
    · rintro rfl
      exact ⟨[], [], rfl, stand_nil, by simp, ho⟩
    · rintro ⟨ds, bs, rfl, h2, rfl, -⟩
      rw [h2.inj stand_nil]; simp
  | succ n ih =>
    intro l out r h ho
    match l, h with
    | [], _ =>
      simp only [b64Plain, Res.ok.injEq, digitsOf_nil]
      constructor
      · rintro rfl
        exact ⟨[], [], rfl, stand_nil, by simp, ho⟩
      · rintro ⟨ds, bs, rfl, h2, rfl, -⟩
        rw [h2.inj stand_nil]; simp
    | [a], _ =>
      simp only [b64Plain, reduceCtorEq, false_iff]
      rintro ⟨ds, bs, h1, h2, -⟩
      have := digitsOf_length h1
      exact h2.1 (by rw [← this]; rfl)
    | [a, b], _ =>
      rw [b64Plain]
      cases ha : b64Digit a with
      | none =>
        simp only [reduceCtorEq, false_iff]
        rintro ⟨ds, bs, h1, -⟩
        obtain ⟨w, vs, h1, -⟩ := digitsOf_cons.1 h1
        rw [ha] at h1; cases h1
      | some x =>
      cases hb : b64Digit b with
      | none =>
        simp only [reduceCtorEq, false_iff]
        rintro ⟨ds, bs, h1, -⟩
        obtain ⟨w, vs, -, h1, -⟩ := digitsOf_cons.1 h1
        obtain ⟨w, vs, h1, -⟩ := digitsOf_cons.1 h1
        rw [hb] at h1; cases h1
      | some y =>
      have hd : DigitsOf [a, b] [x.toNat, y.toNat] :=
        digitsOf_cons.2 ⟨x, _, ha, digitsOf_cons.2 ⟨y, _, hb, .nil, rfl⟩, rfl⟩
      have hs := stand_two x y (b64Digit_lt _ _ ha) (b64Digit_lt _ _ hb)
      have hlen : (out ++ quantumBytes [x, y]).length = out.length + 1 := by simp [quantumBytes]
      simp only
      by_cases hc : out.length + 1 > cap
      · rw [if_pos hc]
        simp only [reduceCtorEq, false_iff]
        rintro ⟨ds, bs, h1, h2, rfl, h4⟩
        rw [digitsOf_inj h1 hd] at h2
        rw [h2.inj hs, hlen] at h4
        omega
      · rw [if_neg hc, Res.ok.injEq]
        constructor
        · rintro rfl
          exact ⟨_, _, hd, hs, rfl, by omega⟩
        · rintro ⟨ds, bs, h1, h2, rfl, h4⟩
          rw [digitsOf_inj h1 hd] at h2
          rw [h2.inj hs]
    | [a, b, c], _ =>
      rw [b64Plain]
      cases ha : b64Digit a with
      | none =>
        simp only [reduceCtorEq, false_iff]
        rintro ⟨ds, bs, h1, -⟩
        obtain ⟨w, vs, h1, -⟩ := digitsOf_cons.1 h1
        rw [ha] at h1; cases h1
      | some x =>
      cases hb : b64Digit b with
      | none =>
        simp only [reduceCtorEq, false_iff]
        rintro ⟨ds, bs, h1, -⟩
        obtain ⟨w, vs, -, h1, -⟩ := digitsOf_cons.1 h1
        obtain ⟨w, vs, h1, -⟩ := digitsOf_cons.1 h1
        rw [hb] at h1; cases h1
      | some y =>
      cases hcc : b64Digit c with
      | none =>
        simp only [reduceCtorEq, false_iff]
        rintro ⟨ds, bs, h1, -⟩
        obtain ⟨w, vs, -, h1, -⟩ := digitsOf_cons.1 h1
        obtain ⟨w, vs, -, h1, -⟩ := digitsOf_cons.1 h1
        obtain ⟨w, vs, h1, -⟩ := digitsOf_cons.1 h1
        rw [hcc] at h1; cases h1
      | some z =>
      have hd : DigitsOf [a, b, c] [x.toNat, y.toNat, z.toNat] :=
        digitsOf_cons.2 ⟨x, _, ha, digitsOf_cons.2 ⟨y, _, hb, digitsOf_cons.2 ⟨z, _, hcc, .nil, rfl⟩, rfl⟩, rfl⟩
      have hs := stand_three x y z (b64Digit_lt _ _ ha) (b64Digit_lt _ _ hb) (b64Digit_lt _ _ hcc)
      have hlen : (out ++ quantumBytes [x, y, z]).length = out.length + 2 := by simp [quantumBytes]
      simp only
      by_cases hc : out.length + 2 > cap
      · rw [if_pos hc]
        simp only [reduceCtorEq, false_iff]
        rintro ⟨ds, bs, h1, h2, rfl, h4⟩
        rw [digitsOf_inj h1 hd] at h2
        rw [h2.inj hs, hlen] at h4
        omega
      · rw [if_neg hc, Res.ok.injEq]
        constructor
        · rintro rfl
          exact ⟨_, _, hd, hs, rfl, by omega⟩
        · rintro ⟨ds, bs, h1, h2, rfl, h4⟩
          rw [digitsOf_inj h1 hd] at h2
          rw [h2.inj hs]
    | a :: b :: c :: d :: rest, h =>
      rw [b64Plain]
      cases ha : b64Digit a with
      | none =>
        simp only [reduceCtorEq, false_iff]
        rintro ⟨ds, bs, h1, -⟩
        obtain ⟨w, vs, h1, -⟩ := digitsOf_cons.1 h1
        rw [ha] at h1; cases h1
      | some x =>
      cases hb : b64Digit b with
      | none =>
        simp only [reduceCtorEq, false_iff]
        rintro ⟨ds, bs, h1, -⟩
        obtain ⟨w, vs, -, h1, -⟩ := digitsOf_cons.1 h1
        obtain ⟨w, vs, h1, -⟩ := digitsOf_cons.1 h1
        rw [hb] at h1; cases h1
      | some y =>
      cases hcc : b64Digit c with
      | none =>
        simp only [reduceCtorEq, false_iff]
        rintro ⟨ds, bs, h1, -⟩
        obtain ⟨w, vs, -, h1, -⟩ := digitsOf_cons.1 h1
        obtain ⟨w, vs, -, h1, -⟩ := digitsOf_cons.1 h1
        obtain ⟨w, vs, h1, -⟩ := digitsOf_cons.1 h1
        rw [hcc] at h1; cases h1
      | some z =>
      cases hdd : b64Digit d with
      | none =>
        simp only [reduceCtorEq, false_iff]
        rintro ⟨ds, bs, h1, -⟩
        obtain ⟨w, vs, -, h1, -⟩ := digitsOf_cons.1 h1
        obtain ⟨w, vs, -, h1, -⟩ := digitsOf_cons.1 h1
        obtain ⟨w, vs, -, h1, -⟩ := digitsOf_cons.1 h1
        obtain ⟨w, vs, h1, -⟩ := digitsOf_cons.1 h1
        rw [hdd] at h1; cases h1
      | some w =>
      have hq : (quantumBytes [x, y, z, w]).length = 3 := rfl
      -- the digits of the whole are these four and the digits of the rest
      have hst : ∀ ds bs, DigitsOf (a :: b :: c :: d :: rest) ds ∧ Stand ds bs ↔
          ∃ ds' bs', DigitsOf rest ds' ∧ Stand ds' bs' ∧
            ds = x.toNat :: y.toNat :: z.toNat :: w.toNat :: ds' ∧ bs = quantumBytes [x, y, z, w] ++ bs' := by
        intro ds bs
        constructor
        · rintro ⟨h1, h2⟩
          obtain ⟨w1, v1, e1, k1, rfl⟩ := digitsOf_cons.1 h1
          obtain ⟨w2, v2, e2, k2, rfl⟩ := digitsOf_cons.1 k1
          obtain ⟨w3, v3, e3, k3, rfl⟩ := digitsOf_cons.1 k2
          obtain ⟨w4, v4, e4, k4, rfl⟩ := digitsOf_cons.1 k3
          clear h1 k1 k2 k3
          have h1 := k4
          rw [ha] at e1; rw [hb] at e2; rw [hcc] at e3; rw [hdd] at e4
          cases e1; cases e2; cases e3; cases e4
          have hlt := bigEndian_lt (b := 64) (by norm_num) v4 (digitsOf_lt h1)
          -- bytes for the remaining digits exist
          have hex : ∃ bs', Stand v4 bs' := by
            have hm : v4.length % 4 ≠ 1 := by have := h2.1; simp only [List.length_cons] at this; omega
            have key : ∀ (n N : ℕ), N < 256 ^ n → ∃ bs : List UInt8, bs.length = n ∧
                bigEndian 256 (bs.map UInt8.toNat) = N := by
              intro n
              induction n with
              | zero => intro N hN; exact ⟨[], rfl, by simp at hN; simp [bigEndian, hN]⟩
              | succ n ih =>
                intro N hN
                obtain ⟨bs, hbs, hv⟩ := ih (N % 256 ^ n) (Nat.mod_lt _ (by positivity))
                have hq : N / 256 ^ n < 256 := Nat.div_lt_of_lt_mul (by rwa [pow_succ] at hN)
                refine ⟨UInt8.ofNat (N / 256 ^ n) :: bs, by simp [hbs], ?_⟩
                simp only [List.map_cons, bigEndian, hv, List.length_map, hbs, UInt8.toNat_ofNat']
                rw [Nat.mod_eq_of_lt hq]
                rw [mul_comm]; exact Nat.div_add_mod N (256 ^ n)
            obtain ⟨bs', hb1, hb2⟩ := key (6 * v4.length / 8) (bigEndian 64 v4 / 2 ^ (6 * v4.length % 8)) (by
              apply Nat.div_lt_of_lt_mul
              have e1 : (64 : ℕ) ^ v4.length = 2 ^ (6 * v4.length) := by rw [pow_mul]; norm_num
              have e2 : (256 : ℕ) ^ (6 * v4.length / 8) = 2 ^ (8 * (6 * v4.length / 8)) := by rw [pow_mul]; norm_num
              rw [e2, ← pow_add, show 6 * v4.length % 8 + 8 * (6 * v4.length / 8) = 6 * v4.length from
                Nat.mod_add_div _ _, ← e1]
              exact hlt)
            exact ⟨bs', hm, hb1, hb2⟩
          obtain ⟨bs', hb'⟩ := hex
          have := stand_four x y z w (b64Digit_lt _ _ ha) (b64Digit_lt _ _ hb) (b64Digit_lt _ _ hcc)
            (b64Digit_lt _ _ hdd) hb'
          exact ⟨v4, bs', h1, hb', rfl, h2.inj this⟩
        · rintro ⟨ds', bs', h1, h2, rfl, rfl⟩
          exact ⟨digitsOf_cons.2 ⟨x, _, ha, digitsOf_cons.2 ⟨y, _, hb, digitsOf_cons.2 ⟨z, _, hcc,
            digitsOf_cons.2 ⟨w, _, hdd, h1, rfl⟩, rfl⟩, rfl⟩, rfl⟩,
            stand_four x y z w (b64Digit_lt _ _ ha) (b64Digit_lt _ _ hb) (b64Digit_lt _ _ hcc) (b64Digit_lt _ _ hdd) h2⟩
      simp only
      by_cases hc : out.length + 3 > cap
      · rw [if_pos hc]
        simp only [reduceCtorEq, false_iff]
        rintro ⟨ds, bs, h1, h2, rfl, h4⟩
        obtain ⟨ds', bs', -, -, -, rfl⟩ := (hst ds bs).1 ⟨h1, h2⟩
        simp only [List.length_append, hq] at h4
        omega
      · rw [if_neg hc, ih rest _ r (by simp at h; omega) (by simp only [List.length_append, hq]; omega)]
        constructor
        · rintro ⟨ds', bs', h1, h2, rfl, h4⟩
          obtain ⟨h5, h6⟩ := (hst _ _).2 ⟨ds', bs', h1, h2, rfl, rfl⟩
          exact ⟨_, _, h5, h6, by rw [List.append_assoc], h4⟩
        · rintro ⟨ds, bs, h1, h2, rfl, h4⟩
          obtain ⟨ds', bs', h5, h6, -, rfl⟩ := (hst ds bs).1 ⟨h1, h2⟩
          exact ⟨ds', bs', h5, h6, by rw [List.append_assoc], h4⟩

theorem b64Decode_ok_iff (cap : ℕ) (txt bs : List UInt8) :
    b64Decode cap txt = .ok bs ↔ IsB64Of txt bs ∧ bs.length ≤ cap := by
  rw [b64Decode_spec, b64Plain_ok_iff cap _ _ [] bs le_rfl (Nat.zero_le _), IsB64Of, withoutBreaks_eq]
  constructor
  · rintro ⟨ds, bs', h1, h2, h3, h4⟩
    rw [List.nil_append] at h3
    subst h3
    exact ⟨⟨ds, h1, h2⟩, h4⟩
  · rintro ⟨⟨ds, h1, h2⟩, h4⟩
    exact ⟨ds, bs, h1, h2, rfl, h4⟩

theorem isB64Of_inj {txt a b : List UInt8} (ha : IsB64Of txt a) (hb : IsB64Of txt b) : a = b := by
  obtain ⟨ds, h1, h2⟩ := ha
  obtain ⟨ds', h3, h4⟩ := hb
  rw [digitsOf_inj h3 h1] at h4
  exact Stand.inj h2 h4

theorem isHexOf_inj {txt a b : List UInt8} (ha : IsHexOf txt a) (hb : IsHexOf txt b) : a = b := by
  have h1 := (hexDecode_of ha).1
  rw [(hexDecode_of hb).1] at h1
  cases h1; rfl

/-- `textToBuf` accepts exactly 64 hexadecimal digits and base64 forms of 32 bytes. -/
theorem textToBuf_ok_iff (txt bs : List UInt8) :
    textToBuf txt = .ok bs ↔ bs.length = 32 ∧ (IsHexOf txt bs ∨ IsB64Of txt bs) := by
  have hv : (match b64Decode 32 txt with
      | Res.ok out => if out.length = 32 then Res.ok out else .err
      | r => r) = Res.ok bs ↔ bs.length = 32 ∧ IsB64Of txt bs := by
    constructor
    · intro h
      cases hr : b64Decode 32 txt with
      | ok out =>
        rw [hr] at h
        simp only at h
        split at h
        · rename_i h32
          injection h with h
          subst h
          exact ⟨h32, ((b64Decode_ok_iff 32 txt _).1 hr).1⟩
        · cases h
      | err => rw [hr] at h; cases h
      | panic => rw [hr] at h; cases h
    · rintro ⟨h1, h2⟩
      rw [(b64Decode_ok_iff 32 txt bs).2 ⟨h2, by omega⟩]
      simp only [h1, if_true]
  constructor
  · intro h
    unfold textToBuf at h
    simp only at h
    split at h
    · rename_i h64
      split at h
      · rename_i out ho
        split at h
        · rename_i h32
          cases h
          exact ⟨h32, .inl (of_hexDecode 32 _ _ (by omega) ho)⟩
        · have := hv.1 h; exact ⟨this.1, .inr this.2⟩
      · have := hv.1 h; exact ⟨this.1, .inr this.2⟩
    · have := hv.1 h; exact ⟨this.1, .inr this.2⟩
  · rintro ⟨h32, h | h⟩
    · exact textToBuf_hex h h32
    · have h' := hv.2 ⟨h32, h⟩
      unfold textToBuf
      simp only
      split
      · rename_i h64
        split
        · rename_i out ho
          split
          · rename_i h32'
            -- 64 hexadecimal digits are 64 base64 digits
            exfalso
            have hx := of_hexDecode 32 _ _ (by omega) ho
            obtain ⟨ds, h1, -, h2, -⟩ := h
            have hlen : (withoutBreaks txt).length = 64 := by
              rw [← h64]
              unfold withoutBreaks
              congr 1
              rw [List.filter_eq_self]
              have hall : ∀ {t b : List UInt8}, IsHexOf t b → ∀ c ∈ t, c.toNat ≠ 10 ∧ c.toNat ≠ 13 := by
                intro t b hh
                induction hh with
                | nil => simp
                | cons ha hb _ ih =>
                  intro c hc
                  rcases List.mem_cons.1 hc with rfl | hc
                  · unfold HexDig at ha; omega
                  · rcases List.mem_cons.1 hc with rfl | hc
                    · unfold HexDig at hb; omega
                    · exact ih c hc
              intro c hc
              have := hall hx c hc
              simp only [decide_eq_true_eq]
              constructor
              · rintro rfl; exact this.1 rfl
              · rintro rfl; exact this.2 rfl
            have := digitsOf_length h1
            omega
          · exact h'
        · exact h'
      · exact h'

/-! ## Encoding -/

theorem e0 : ∀ a : UInt8, (a >>> 2).toNat = a.toNat / 4 := uint8_forall (by decide +kernel)
theorem e1 (a b : UInt8) : (((a &&& 3) <<< 4) ||| (b >>> 4)).toNat = 16 * (a.toNat % 4) + b.toNat / 16 := by
  have h1 : ∀ a : UInt8, (a &&& 3).toNat = a.toNat % 4 := uint8_forall (by decide +kernel)
  have h2 : ∀ a : UInt8, (a >>> 4).toNat = a.toNat / 16 := uint8_forall (by decide +kernel)
  have := lt_forall (n := 4) (by norm_num)
    (P := fun x => ∀ y : UInt8, y.toNat < 16 → ((x <<< 4) ||| y).toNat = 16 * x.toNat + y.toNat)
    (fun i => lt_forall (by norm_num) (by revert i; decide +kernel)) (a &&& 3) (by rw [h1]; omega) (b >>> 4)
    (by rw [h2]; have := b.toNat_lt; omega)
  rw [this, h1, h2]
theorem e2 (b c : UInt8) : (((b &&& 15) <<< 2) ||| (c >>> 6)).toNat = 4 * (b.toNat % 16) + c.toNat / 64 := by
  have h1 : ∀ a : UInt8, (a &&& 15).toNat = a.toNat % 16 := uint8_forall (by decide +kernel)
  have h2 : ∀ a : UInt8, (a >>> 6).toNat = a.toNat / 64 := uint8_forall (by decide +kernel)
  have := lt_forall (n := 16) (by norm_num)
    (P := fun x => ∀ y : UInt8, y.toNat < 4 → ((x <<< 2) ||| y).toNat = 4 * x.toNat + y.toNat)
    (fun i => lt_forall (by norm_num) (by revert i; decide +kernel)) (b &&& 15) (by rw [h1]; omega) (c >>> 6)
    (by rw [h2]; have := c.toNat_lt; omega)
  rw [this, h1, h2]
theorem e3 : ∀ a : UInt8, (a &&& 63).toNat = a.toNat % 64 := uint8_forall (by decide +kernel)
theorem e1' : ∀ a : UInt8, ((a &&& 3) <<< 4).toNat = 16 * (a.toNat % 4) := uint8_forall (by decide +kernel)
theorem e2' : ∀ a : UInt8, ((a &&& 15) <<< 2).toNat = 4 * (a.toNat % 16) := uint8_forall (by decide +kernel)

theorem b64Dig_char {d : UInt8} (h : d.toNat < 64) : B64Dig (b64Char d) d.toNat :=
  b64Dig_digit.2 ⟨d, b64Digit_char d (UInt8.lt_iff_toNat_lt.2 h), rfl⟩

theorem encode_canonical : ∀ (n : ℕ) (bs : List UInt8), bs.length ≤ n → IsCanonicalB64Of (b64Encode bs) bs := by
  intro n
  induction n with
  | zero =>
    intro bs h
    have : bs = [] := by simpa using h
    subst this
    exact ⟨[], .nil, rfl, rfl⟩
  | succ n ih =>
    intro bs h
    match bs, h with
    | [], _ => exact ⟨[], .nil, rfl, rfl⟩
    | [a], _ =>
      have ha := a.toNat_lt
      refine ⟨[a.toNat / 4, 16 * (a.toNat % 4)], ?_, by simp, ?_⟩
      · rw [← e0, ← e1']
        exact .cons (b64Dig_char (by rw [e0]; omega)) (.cons (b64Dig_char (by rw [e1']; omega)) .nil)
      · simp only [bigEndian, List.length_cons, List.length_nil, List.map_cons, List.map_nil]
        simp only [Nat.reduceAdd, Nat.reduceMul, Nat.reduceSub, Nat.reducePow]
        omega
    | [a, b], _ =>
      have ha := a.toNat_lt
      have hb := b.toNat_lt
      refine ⟨[a.toNat / 4, 16 * (a.toNat % 4) + b.toNat / 16, 4 * (b.toNat % 16)], ?_, by simp, ?_⟩
      · rw [← e0, ← e1, ← e2']
        exact .cons (b64Dig_char (by rw [e0]; omega)) (.cons (b64Dig_char (by rw [e1]; omega))
          (.cons (b64Dig_char (by rw [e2']; omega)) .nil))
      · simp only [bigEndian, List.length_cons, List.length_nil, List.map_cons, List.map_nil]
        simp only [Nat.reduceAdd, Nat.reduceMul, Nat.reduceSub, Nat.reducePow]
        omega
    | a :: b :: c :: rest, h =>
      have ha := a.toNat_lt
      have hb := b.toNat_lt
      have hc := c.toNat_lt
      obtain ⟨ds, h1, h2, h3⟩ := ih rest (by simp at h; omega)
      refine ⟨a.toNat / 4 :: (16 * (a.toNat % 4) + b.toNat / 16) :: (4 * (b.toNat % 16) + c.toNat / 64) ::
        c.toNat % 64 :: ds, ?_, by simp only [List.length_cons]; omega, ?_⟩
      · rw [← e0, ← e1, ← e2, ← e3]
        exact .cons (b64Dig_char (by rw [e0]; omega)) (.cons (b64Dig_char (by rw [e1]; omega))
          (.cons (b64Dig_char (by rw [e2]; omega)) (.cons (b64Dig_char (by rw [e3]; omega)) h1)))
      · simp only [bigEndian, List.length_cons, List.map_cons, List.length_map]
        have hk : 6 * (ds.length + 1 + 1 + 1 + 1) - 8 * (rest.length + 1 + 1 + 1) = 6 * ds.length - 8 * rest.length := by
          omega
        rw [hk, h3]
        have hpow : (64 : ℕ) ^ ds.length = 256 ^ rest.length * 2 ^ (6 * ds.length - 8 * rest.length) := by
          have e1 : (64 : ℕ) ^ ds.length = 2 ^ (6 * ds.length) := by rw [pow_mul]; norm_num
          have e2 : (256 : ℕ) ^ rest.length = 2 ^ (8 * rest.length) := by rw [pow_mul]; norm_num
          rw [e1, e2, ← pow_add]
          congr 1
          omega
        have hq : a.toNat / 4 * 262144 + (16 * (a.toNat % 4) + b.toNat / 16) * 4096 +
            (4 * (b.toNat % 16) + c.toNat / 64) * 64 + c.toNat % 64 = a.toNat * 65536 + b.toNat * 256 + c.toNat := by
          omega
        simp only [pow_succ, hpow]
        linear_combination (256 ^ rest.length * 2 ^ (6 * ds.length - 8 * rest.length)) * hq

theorem bigEndian_inj : ∀ {a b : List ℕ}, (∀ d ∈ a, d < 64) → (∀ d ∈ b, d < 64) → a.length = b.length →
    bigEndian 64 a = bigEndian 64 b → a = b
  | [], [], _, _, _, _ => rfl
  | [], _ :: _, _, _, h, _ => by simp at h
  | _ :: _, [], _, _, h, _ => by simp at h
  | x :: a, y :: b, h1, h2, hl, h => by
    have hl' : a.length = b.length := by simpa using hl
    have ha := bigEndian_lt (b := 64) (by norm_num) a fun d hd => h1 d (List.mem_cons_of_mem _ hd)
    have hb := bigEndian_lt (b := 64) (by norm_num) b fun d hd => h2 d (List.mem_cons_of_mem _ hd)
    simp only [bigEndian, hl'] at h
    rw [hl'] at ha
    have hd : x = y := by
      have e1 : (x * 64 ^ b.length + bigEndian 64 a) / 64 ^ b.length = x := by
        rw [mul_comm, Nat.mul_add_div (by positivity), Nat.div_eq_of_lt ha, add_zero]
      have e2 : (y * 64 ^ b.length + bigEndian 64 b) / 64 ^ b.length = y := by
        rw [mul_comm, Nat.mul_add_div (by positivity), Nat.div_eq_of_lt hb, add_zero]
      rw [← e1, h, e2]
    subst hd
    rw [bigEndian_inj (fun d hd => h1 d (List.mem_cons_of_mem _ hd)) (fun d hd => h2 d (List.mem_cons_of_mem _ hd)) hl'
      (Nat.add_left_cancel h)]

theorem b64Dig_inj {c c' : UInt8} {v : ℕ} (h : B64Dig c v) (h' : B64Dig c' v) : c = c' := by
  unfold B64Dig at h h'
  exact UInt8.toNat_inj.1 (by omega)

theorem digitsOf_inj' {a b : List UInt8} {ds : List ℕ} (ha : DigitsOf a ds) (hb : DigitsOf b ds) : a = b := by
  induction ha generalizing b with
  | nil => cases hb; rfl
  | cons h _ ih =>
    cases hb with
    | cons h' hs' => rw [b64Dig_inj h h', ih hs']

theorem canonical_inj {a b bs : List UInt8} (ha : IsCanonicalB64Of a bs) (hb : IsCanonicalB64Of b bs) : a = b := by
  obtain ⟨d1, h1, h2, h3⟩ := ha
  obtain ⟨d2, h4, h5, h6⟩ := hb
  have hl : d1.length = d2.length := h2.trans h5.symm
  rw [← hl] at h6
  have := bigEndian_inj (digitsOf_lt h1) (digitsOf_lt h4) hl (h3.trans h6.symm)
  subst this
  exact digitsOf_inj' h1 h4

/-- `Encode` returns the base64 form. -/
theorem encode_iff (txt bs : List UInt8) : txt = b64Encode bs ↔ IsCanonicalB64Of txt bs := by
  constructor
  · rintro rfl; exact encode_canonical _ bs le_rfl
  · intro h; exact canonical_inj h (encode_canonical _ bs le_rfl)

/-! ## The text form of 32 bytes -/

theorem b64Dig_sym : ∀ v, v < 64 → B64Dig (b64Sym v) v := by
  unfold B64Dig b64Sym
  decide +kernel

theorem bigEndian_range (b N : ℕ) (hb : 0 < b) : ∀ n : ℕ,
    bigEndian b ((List.range n).map fun i => N / b ^ (n - 1 - i) % b) = N % b ^ n
  | 0 => by simp [bigEndian, Nat.mod_one]
  | n + 1 => by
    rw [List.range_succ_eq_map, List.map_cons, List.map_map, bigEndian]
    have h := bigEndian_range b N hb n
    have e : ((fun i => N / b ^ (n + 1 - 1 - i) % b) ∘ Nat.succ) = fun i => N / b ^ (n - 1 - i) % b := by
      funext i
      simp only [Function.comp, Nat.succ_eq_add_one]
      congr 3
      omega
    rw [e, h, List.length_map, List.length_range]
    simp only [Nat.add_sub_cancel, Nat.sub_zero]
    rw [pow_succ, Nat.mod_mul]
    ring

theorem digitsOf_map : ∀ (l : List ℕ) (f : ℕ → ℕ), (∀ i, f i < 64) →
    DigitsOf (l.map fun i => b64Sym (f i)) (l.map f)
  | [], _, _ => .nil
  | i :: l, f, h => .cons (b64Dig_sym _ (h i)) (digitsOf_map l f h)

theorem text32_eq (b : Bytes 32) : b64Encode b.toList = text32 b := by
  have hl : b.toList.length = 32 := by simp
  have hlt := bytes_lt b.toList
  rw [hl] at hlt
  symm
  rw [encode_iff]
  refine ⟨(List.range 43).map fun i => 4 * bigEndian 256 (b.toList.map UInt8.toNat) / 64 ^ (42 - i) % 64,
    digitsOf_map _ _ fun i => Nat.mod_lt _ (by norm_num), by simp, ?_⟩
  have := bigEndian_range 64 (4 * bigEndian 256 (b.toList.map UInt8.toNat)) (by norm_num) 43
  simp only [Nat.reduceSub] at this
  rw [this, hl, List.length_map, List.length_range]
  rw [Nat.mod_eq_of_lt (by
    have e : (64 : ℕ) ^ 43 = 4 * 256 ^ 32 := by norm_num
    omega)]
  simp only [Nat.reduceMul, Nat.reduceSub, Nat.reducePow]
  omega

/-! ## The parsers -/

theorem toBytes_eq {bs : List UInt8} (h : bs.length = 32) : (toBytes 32 bs).toList = bs := by
  apply List.ext_getElem
  · simp [h]
  · intro i h1 h2
    simp [toBytes, h2]

theorem bytes_choose {P : List UInt8 → Prop} (h : ∃ b : Bytes 32, P b.toList)
    (hP : ∀ x y, P x → P y → x = y) {bs : List UInt8} (hb : P bs) (hl : bs.length = 32) :
    h.choose = toBytes 32 bs := by
  have := hP _ _ h.choose_spec hb
  apply Vector.toList_inj.1
  rw [toBytes_eq hl, this]

theorem textOf_inj {txt a b : List UInt8} (h1 : a.length = 32) (h2 : b.length = 32)
    (ha : IsHexOf txt a ∨ IsB64Of txt a) (hb : IsHexOf txt b ∨ IsB64Of txt b) : a = b := by
  have e1 := (textToBuf_ok_iff txt a).2 ⟨h1, ha⟩
  have e2 := (textToBuf_ok_iff txt b).2 ⟨h2, hb⟩
  rw [e1] at e2
  cases e2; rfl

theorem parsePoint_eq (txt : List UInt8) :
    parsePoint txt = match textToBuf txt with
      | .ok bs => .bytes (toBytes 32 bs)
      | .err => .malformed
      | .panic => .panic := by
  have hpanic := textToBuf_panic_iff txt
  rw [← longB64_iff] at hpanic
  unfold parsePoint
  cases e : textToBuf txt with
  | ok bs =>
    obtain ⟨hl, hb⟩ := (textToBuf_ok_iff txt bs).1 e
    have hex : ∃ b : Bytes 32, IsHexOf txt b.toList ∨ IsB64Of txt b.toList :=
      ⟨toBytes 32 bs, by rw [toBytes_eq hl]; exact hb⟩
    rw [dif_pos hex]
    simp only [Parsed.bytes.injEq]
    apply Vector.toList_inj.1
    rw [toBytes_eq hl]
    exact textOf_inj (by simp) hl hex.choose_spec hb
  | err =>
    have hno : ¬ ∃ b : Bytes 32, IsHexOf txt b.toList ∨ IsB64Of txt b.toList := by
      rintro ⟨b, hb⟩
      rw [(textToBuf_ok_iff txt b.toList).2 ⟨by simp, hb⟩] at e
      cases e
    have hlong : ¬ LongB64 txt := by
      intro hL
      have := hpanic.2 ⟨hL, fun ⟨bs, h1, h2⟩ => hno ⟨toBytes 32 bs, .inl (by rw [toBytes_eq h1]; exact h2)⟩⟩
      rw [e] at this
      cases this
    rw [dif_neg hno, if_neg hlong]
  | panic =>
    have hno : ¬ ∃ b : Bytes 32, IsHexOf txt b.toList ∨ IsB64Of txt b.toList := by
      rintro ⟨b, hb⟩
      rw [(textToBuf_ok_iff txt b.toList).2 ⟨by simp, hb⟩] at e
      cases e
    rw [dif_neg hno, if_pos (hpanic.1 e).1]

theorem parseScalar_eq (txt : List UInt8) :
    parseScalar txt = match b64Decode 32 txt with
      | .ok bs => if bs.length = 32 then .bytes (toBytes 32 bs) else .malformed
      | .err => .malformed
      | .panic => .panic := by
  have hpanic := longB64_iff txt
  unfold parseScalar
  cases e : b64Decode 32 txt with
  | ok bs =>
    obtain ⟨hb, -⟩ := (b64Decode_ok_iff 32 txt bs).1 e
    have hlong : ¬ LongB64 txt := by rw [hpanic, e]; simp
    by_cases hl : bs.length = 32
    · have hex : ∃ b : Bytes 32, IsB64Of txt b.toList := ⟨toBytes 32 bs, by rw [toBytes_eq hl]; exact hb⟩
      rw [dif_pos hex, bytes_choose (P := IsB64Of txt) hex (fun _ _ => isB64Of_inj) hb hl]
      simp only [hl, if_true]
    · have hno : ¬ ∃ b : Bytes 32, IsB64Of txt b.toList := by
        rintro ⟨b, hb'⟩
        rw [isB64Of_inj hb hb'] at hl
        exact hl (by simp)
      rw [dif_neg hno, if_neg hlong]
      simp only [hl, if_false]
  | err =>
    have hno : ¬ ∃ b : Bytes 32, IsB64Of txt b.toList := by
      rintro ⟨b, hb⟩
      rw [(b64Decode_ok_iff 32 txt b.toList).2 ⟨hb, by simp⟩] at e
      cases e
    have hlong : ¬ LongB64 txt := by rw [hpanic, e]; simp
    rw [dif_neg hno, if_neg hlong]
  | panic =>
    have hno : ¬ ∃ b : Bytes 32, IsB64Of txt b.toList := by
      rintro ⟨b, hb⟩
      rw [(b64Decode_ok_iff 32 txt b.toList).2 ⟨hb, by simp⟩] at e
      cases e
    rw [dif_neg hno, if_pos (hpanic.2 e)]

end Ristretto.Proofs
