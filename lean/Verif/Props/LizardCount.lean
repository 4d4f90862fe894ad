import Verif.Props.Derive

/-!
# C76: how many points carry data

`SetLizard` hides 16 bytes in a point, `Lizard` finds them.  The hash function `H` is arbitrary.
-/

namespace Ristretto.Props
open Model Proofs
set_option autoImplicit false

theorem lizardNat_inj (H : List UInt8 → Bytes 32) {a b : Bytes 16} (h : (lizardNat H a : Fp) = lizardNat H b) : a = b := by
  have ha := lizardBuf_lt H a
  have hb := lizardBuf_lt H b
  rw [← lizFe_eq, ← lizFe_eq] at h
  have h := congrArg ZMod.val h
  rw [lizFe_val, lizFe_val, lizardBuf_val, lizardBuf_val] at h
  have la := leVal_lt a
  have lb := leVal_lt b
  have e : leVal a = leVal b := by
    unfold lizardNat at h
    simp only at h
    generalize leVal (H a.toList) = x at h
    generalize leVal (H b.toList) = y at h
    generalize leVal a = u at *
    generalize leVal b = v at *
    clear ha hb
    simp only [Nat.reducePow, Nat.reduceMul] at *
    omega
  exact leVal_inj e

/-- **C76** (collisions).  At most 8 inputs of `SetLizard` share a point. -/
theorem C76_preimages (H : List UInt8 → Bytes 32) (g : RGroup) :
    Nat.card {data : Bytes 16 // Represents (Point.setLizard H data : ExtPt Fe51) g} ≤ 8 := by
  obtain ⟨hf, h8⟩ := nonNegPre_card g
  refine le_trans (Nat.card_le_card_of_injective (β := NonNegPre g) (fun x => ⟨(lizardNat H x.1 : Fp), ?_, ?_⟩) ?_) h8
  · rw [← lizFe_eq]; exact lizFe_nonneg H x.1
  · exact represents_unique (C37_setLizard H x.1) x.2
  · intro a b hab
    exact Subtype.ext (lizardNat_inj H (congrArg Subtype.val hab))

/-- **C76** (range).  `SetLizard` reaches at least 2^125 and at most 2^128 points. -/
theorem C76_range (H : List UInt8 → Bytes 32) :
    2 ^ 125 ≤ Nat.card {g : RGroup // ∃ data : Bytes 16, Represents (Point.setLizard H data : ExtPt Fe51) g} ∧
    Nat.card {g : RGroup // ∃ data : Bytes 16, Represents (Point.setLizard H data : ExtPt Fe51) g} ≤ 2 ^ 128 := by
  have hfin := finite_RGroup
  set S := {g : RGroup // ∃ data : Bytes 16, Represents (Point.setLizard H data : ExtPt Fe51) g} with hS
  have hb : Nat.card (Bytes 16) = 2 ^ 128 := by rw [buf_total, show (256 : ℕ) = 2 ^ 8 from rfl, ← pow_mul]
  have hfb : Finite (Bytes 16) := Nat.finite_of_card_ne_zero (by rw [hb]; norm_num)
  constructor
  · have e : Bytes 16 ≃ Σ g : S, {data : Bytes 16 // Represents (Point.setLizard H data : ExtPt Fe51) g.1} :=
      { toFun := fun b => ⟨⟨_, b, C37_setLizard H b⟩, b, C37_setLizard H b⟩
        invFun := fun x => x.2.1
        left_inv := fun b => rfl
        right_inv := by
          rintro ⟨⟨g, hg⟩, b, hb⟩
          obtain rfl := represents_unique (C37_setLizard H b) hb
          rfl }
    have h1 := Nat.card_congr e
    let _ := Fintype.ofFinite S
    rw [Nat.card_sigma] at h1
    have h2 : ∑ g : S, Nat.card {data : Bytes 16 // Represents (Point.setLizard H data : ExtPt Fe51) g.1} ≤ ∑ _g : S, 8 :=
      Finset.sum_le_sum fun g _ => C76_preimages H g.1
    rw [← h1, Finset.sum_const, Finset.card_univ, ← Nat.card_eq_fintype_card, smul_eq_mul, hb] at h2
    clear h1 e
    generalize Nat.card S = n at *
    simp only [Nat.reducePow] at *
    omega
  · rw [← hb]
    refine Nat.card_le_card_of_surjective (fun b : Bytes 16 => (⟨_, b, C37_setLizard H b⟩ : S)) ?_
    rintro ⟨g, b, hg⟩
    exact ⟨b, Subtype.ext (represents_unique (C37_setLizard H b) hg)⟩

/-- Points that `Lizard` decodes, among the results of a function that has no frequent results. -/
theorem decode_card {B : Type} [Finite B] (H : List UInt8 → Bytes 32) (f : B → ExtPt Fe51) (φ : B → RGroup)
    (hf : ∀ b, Represents (f b) (φ b)) (N : ℕ) (hN : ∀ g, Nat.card {b : B // Represents (f b) g} ≤ N) :
    Nat.card {b : B // (Point.lizard H (f b)).isSome} ≤ 2 ^ 128 * N := by
  have hfin := finite_RGroup
  set S := {g : RGroup // ∃ data : Bytes 16, Represents (Point.setLizard H data : ExtPt Fe51) g} with hS
  let _ := Fintype.ofFinite S
  have inS : ∀ b, (Point.lizard H (f b)).isSome → ∃ data : Bytes 16, Represents (Point.setLizard H data : ExtPt Fe51) (φ b) := by
    intro b hb
    obtain ⟨data, hd⟩ := Option.isSome_iff_exists.1 hb
    refine ⟨data, ?_⟩
    have h2 : Point.lizardInto H (f b) (Vector.replicate 16 0) = (data, .nil) := by
      unfold Point.lizard at hd
      simp only at hd
      generalize Point.lizardInto H (f b) (Vector.replicate 16 0) = r at *
      obtain ⟨u, v⟩ := r
      by_cases h : v = .nil
      · simp only [h, if_true, Option.some.injEq] at hd
        rw [h, hd]
      · simp only [h, if_false] at hd
        cases hd
    have h3 := (C37_sound H _ _ (hf b) _ _ h2).1
    rw [← h3]
    exact C37_setLizard H data
  have h1 := Nat.card_le_card_of_injective (α := {b : B // (Point.lizard H (f b)).isSome})
    (β := Σ g : S, {b : B // Represents (f b) g.1}) (fun b => ⟨⟨φ b.1, inS b.1 b.2⟩, b.1, hf b.1⟩) (by
      intro a b hab
      have h1 : φ a.1 = φ b.1 := congrArg (fun x => x.1.1) hab
      have := congrArg (fun x : (Σ g : S, {b : B // Represents (f b) g.1}) => x.2.1) hab
      exact Subtype.ext this)
  refine h1.trans ?_
  rw [Nat.card_sigma]
  refine (Finset.sum_le_sum fun g _ => hN g.1).trans ?_
  rw [Finset.sum_const, Finset.card_univ, ← Nat.card_eq_fintype_card, smul_eq_mul]
  exact Nat.mul_le_mul_right N (C76_range H).2

theorem finite_bytes (n : ℕ) : Finite (Bytes n) := Nat.finite_of_card_ne_zero (by rw [buf_total]; positivity)

/-- **C76** (random points).  `Lizard` decodes the result of `Rand` for at most `2^134` of the `2^256` buffers the reader may
fill. -/
theorem C76_rand (H : List UInt8 → Bytes 32) :
    Nat.card {b : Bytes 32 // (Point.lizard H (Point.rand b : ExtPt Fe51)).isSome} ≤ 2 ^ 134 := by
  have := finite_bytes 32
  refine (decode_card H (fun b : Bytes 32 => Point.rand b) _ C34_setElligator 64 C59_point).trans ?_
  norm_num

/-- **C76** (hashed points).  `Lizard` decodes the results of `Derive` and `DeriveDalek` for at most `2^390` of the `2^512`
digests each. -/
theorem C76_derive (H : List UInt8 → Bytes 32) :
    Nat.card {h : Bytes 64 // (Point.lizard H (deriveFrom h)).isSome} ≤ 2 ^ 390 ∧
    Nat.card {h : Bytes 64 // (Point.lizard H (deriveDalekFrom h)).isSome} ≤ 2 ^ 390 := by
  have := finite_bytes 64
  constructor
  · refine (decode_card H deriveFrom _ (fun h => (C35_derive (fun _ => h) []).1) _ C73_derive_point).trans (le_of_eq ?_)
    rw [show (64 : ℕ) = 2 ^ 6 from rfl, ← pow_add, ← pow_add]
  · refine (decode_card H deriveDalekFrom _ (fun h => (C35_derive (fun _ => h) []).2) _ C73_dalek_point).trans (le_of_eq ?_)
    rw [show (64 : ℕ) = 2 ^ 6 from rfl, ← pow_add, ← pow_add]

/-- The counts are of sets that are not empty: every input is encoded to a point, every buffer gives a random point, and there
are `2^256` and `2^512` of them. -/
example (H : List UInt8 → Bytes 32) (data : Bytes 16) (b : Bytes 32) :
    (∃ g, Represents (Point.setLizard H data : ExtPt Fe51) g) ∧ (∃ g, Represents (Point.rand b : ExtPt Fe51) g) ∧
    Nat.card (Bytes 32) = 2 ^ 256 ∧ Nat.card (Bytes 64) = 2 ^ 512 :=
  ⟨⟨_, C37_setLizard H data⟩, ⟨_, C34_setElligator b⟩, by rw [buf_total]; decide +kernel,
    C73_digests⟩

end Ristretto.Props
