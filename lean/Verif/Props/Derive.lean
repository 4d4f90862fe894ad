import Verif.Props.Random
import Mathlib.Combinatorics.Additive.CauchyDavenport

/-!
# C73: which elements hashing reaches, and how often

`Derive` and `DeriveDalek` hash their argument with SHA-512.  Here the digest ranges over all 64-byte strings.
-/

namespace Ristretto.Props
open Model Proofs
open scoped Pointwise
set_option autoImplicit false

/-- `Derive` when the digest is `h`. -/
def deriveFrom (h : Bytes 64) : ExtPt Fe51 := Point.derive (fun _ => h) []
/-- `DeriveDalek` when the digest is `h`. -/
def deriveDalekFrom (h : Bytes 64) : ExtPt Fe51 := Point.deriveDalek (fun _ => h) []

theorem deriveFrom_eq (sha512 : List UInt8 → Bytes 64) (data : List UInt8) :
    (Point.derive sha512 data : ExtPt Fe51) = deriveFrom (sha512 data) := rfl

theorem deriveDalekFrom_eq (sha512 : List UInt8 → Bytes 64) (data : List UInt8) :
    (Point.deriveDalek sha512 data : ExtPt Fe51) = deriveDalekFrom (sha512 data) := rfl

theorem finite_RGroup : Finite RGroup := Nat.finite_of_card_ne_zero (by rw [card_RGroup]; norm_num [l])

/-- The elements Elligator reaches. -/
theorem ellMap_range : 2 ^ 251 - 1 ≤ Nat.card {g : RGroup // ∃ x : Fp, ellMap x = g} := by
  have hfin := finite_RGroup
  set S := {g : RGroup // ∃ x : Fp, ellMap x = g} with hS
  have e : Fp ≃ Σ g : S, {x : Fp // ellMap x = g.1} :=
    { toFun := fun x => ⟨⟨_, x, rfl⟩, x, rfl⟩
      invFun := fun x => x.2.1
      left_inv := fun b => rfl
      right_inv := by
        rintro ⟨⟨g, hg⟩, b, hb⟩
        have e : g = ellMap b := hb.symm
        subst e
        rfl }
  have h1 := Nat.card_congr e
  let _ := Fintype.ofFinite S
  have : ∀ g : S, Finite {x : Fp // ellMap x = g.1} := fun g => (pre_card g.1).1
  rw [Nat.card_sigma] at h1
  have h2 : ∑ g : S, Nat.card {x : Fp // ellMap x = g.1} ≤ ∑ _g : S, 16 := Finset.sum_le_sum fun g _ => (pre_card g.1).2
  rw [← h1, Finset.sum_const, Finset.card_univ, ← Nat.card_eq_fintype_card, smul_eq_mul, Nat.card_zmod] at h2
  have hp : p = 2 ^ 255 - 19 := by norm_num [p]
  rw [hp] at h2
  generalize Nat.card S = n at *
  clear h1 e
  simp only [Nat.reducePow, Nat.reduceSub] at *
  omega

/-- Every field element is the low half, or the high half, of a digest. -/
theorem digest_of (x y : Fp) : ∃ h : Bytes 64, ((leVal h % 2 ^ 255 : ℕ) : Fp) = x ∧
    ((leVal h / 2 ^ 256 % 2 ^ 255 : ℕ) : Fp) = y := by
  have hx : x.val < 2 ^ 255 := (ZMod.val_lt x).trans (by norm_num [p])
  have hy : y.val < 2 ^ 255 := (ZMod.val_lt y).trans (by norm_num [p])
  refine ⟨leBytes 64 (x.val + 2 ^ 256 * y.val), ?_, ?_⟩
  all_goals
    rw [leVal_leBytes]
  · have : (x.val + 2 ^ 256 * y.val) % 256 ^ 64 % 2 ^ 255 = x.val := by
      generalize x.val = a at *
      generalize y.val = b at *
      simp only [Nat.reducePow] at *
      omega
    rw [this, ZMod.natCast_val, ZMod.cast_id]
  · have : (x.val + 2 ^ 256 * y.val) % 256 ^ 64 / 2 ^ 256 % 2 ^ 255 = y.val := by
      generalize x.val = a at *
      generalize y.val = b at *
      simp only [Nat.reducePow] at *
      omega
    rw [this, ZMod.natCast_val, ZMod.cast_id]

/-- **C73** (`Derive`): nearly half of the elements, at least, are results. -/
theorem C73_derive_range : 2 ^ 251 - 1 ≤ Nat.card {g : RGroup // ∃ h, Represents (deriveFrom h) g} := by
  refine ellMap_range.trans (le_of_eq (Nat.card_congr (Equiv.subtypeEquivRight fun g => ?_)))
  constructor
  · rintro ⟨x, rfl⟩
    obtain ⟨h, h1, -⟩ := digest_of x 0
    exact ⟨h, by have := (C35_derive (fun _ => h) []).1; rwa [h1] at this⟩
  · rintro ⟨h, hg⟩
    exact ⟨_, represents_unique (C35_derive (fun _ => h) []).1 hg⟩

/-- **C73** (`DeriveDalek`): all elements but for one in `2^127`, at most, are results. -/
theorem C73_dalek_range : 2 ^ 252 - 3 ≤ Nat.card {g : RGroup // ∃ h, Represents (deriveDalekFrom h) g} := by
  classical
  have hfin := finite_RGroup
  let _ := Fintype.ofFinite RGroup
  let A : Finset RGroup := Finset.univ.filter fun g => ∃ x : Fp, ellMap x = g
  have hA : 2 ^ 251 - 1 ≤ A.card := by
    have := ellMap_range
    rwa [Nat.card_eq_fintype_card, Fintype.card_subtype] at this
  have hne : A.Nonempty := ⟨ellMap 0, by simp [A]⟩
  have hcd := cauchy_davenport_minOrder_add hne hne
  have hmin : (l : ℕ∞) ≤ AddMonoid.minOrder RGroup := by
    rw [AddMonoid.le_minOrder]
    intro g hg _
    have : addOrderOf g = l := addOrderOf_eq_prime (l_smul g) hg
    rw [this]
  have hcd' : min l (A.card + A.card - 1) ≤ (A + A).card := by
    rcases min_le_iff.1 ((min_le_min_right _ hmin).trans hcd) with h | h
    · exact min_le_of_left_le (Nat.cast_le.1 h)
    · exact min_le_of_right_le (Nat.cast_le.1 h)
  have hsub : (A + A).card ≤ Nat.card {g : RGroup // ∃ h, Represents (deriveDalekFrom h) g} := by
    rw [Nat.card_eq_fintype_card, Fintype.card_subtype]
    apply Finset.card_le_card
    intro g hg
    obtain ⟨a, ha, b, hb, rfl⟩ := Finset.mem_add.1 hg
    simp only [A, Finset.mem_filter, Finset.mem_univ, true_and] at ha hb ⊢
    obtain ⟨x, rfl⟩ := ha
    obtain ⟨y, rfl⟩ := hb
    obtain ⟨h, h1, h2⟩ := digest_of x y
    exact ⟨h, by have := (C35_derive (fun _ => h) []).2; rwa [h1, h2] at this⟩
  have hl := l_eq
  generalize Nat.card {g : RGroup // ∃ h, Represents (deriveDalekFrom h) g} = n at *
  generalize (A + A).card = m at *
  generalize A.card = k at *
  generalize l = L at *
  clear hmin hcd hne
  simp only [Nat.reducePow, Nat.reduceSub] at *
  omega

/-- The elements `DeriveDalek` may miss: less than one in `2^127`. -/
theorem C73_dalek_missed :
    2 ^ 127 * Nat.card {g : RGroup // ¬ ∃ h, Represents (deriveDalekFrom h) g} < l := by
  classical
  have hfin := finite_RGroup
  have h := C73_dalek_range
  have h2 : Nat.card {g : RGroup // ∃ h, Represents (deriveDalekFrom h) g} +
      Nat.card {g : RGroup // ¬ ∃ h, Represents (deriveDalekFrom h) g} = l := by
    rw [← card_RGroup, ← Nat.card_sum]
    exact Nat.card_congr (Equiv.sumCompl _)
  have hl := l_eq
  generalize Nat.card {g : RGroup // ∃ h, Represents (deriveDalekFrom h) g} = n at *
  generalize Nat.card {g : RGroup // ¬ ∃ h, Represents (deriveDalekFrom h) g} = m at *
  generalize l = L at *
  simp only [Nat.reducePow, Nat.reduceSub] at *
  omega

/-- The two halves of a digest. -/
theorem halves (h : Bytes 64) : leVal (leBytes 32 (leVal h)) = leVal h % 2 ^ 256 ∧
    leVal (leBytes 32 (leVal h / 2 ^ 256)) = leVal h / 2 ^ 256 := by
  have h1 := leVal_lt h
  have e : (256 : ℕ) ^ 32 = 2 ^ 256 := by norm_num
  have e2 : (256 : ℕ) ^ 64 = 2 ^ 256 * 2 ^ 256 := by norm_num
  rw [leVal_leBytes, leVal_leBytes, e]
  rw [e2] at h1
  exact ⟨rfl, Nat.mod_eq_of_lt (Nat.div_lt_of_lt_mul h1)⟩

theorem card_pairs (P : Bytes 64 → Prop) (f : Bytes 32 → RGroup)
    (hP : ∀ h, P h → ellMap ((leVal h % 2 ^ 255 : ℕ) : Fp) = f (leBytes 32 (leVal h / 2 ^ 256))) :
    Nat.card {h : Bytes 64 // P h} ≤ 2 ^ 256 * 64 := by
  have hfin : Finite (Bytes 32) := Nat.finite_of_card_ne_zero (by rw [buf_total]; norm_num)
  let _ := Fintype.ofFinite (Bytes 32)
  have : ∀ b, Finite {x : Bytes 32 // Represents (Point.rand x : ExtPt Fe51) (f b)} := fun b => Subtype.finite
  obtain ⟨lo, hlo⟩ : ∃ lo : Bytes 64 → Bytes 32, ∀ h, lo h = leBytes 32 (leVal h) := ⟨_, fun _ => rfl⟩
  obtain ⟨hi, hhi⟩ : ∃ hi : Bytes 64 → Bytes 32, ∀ h, hi h = leBytes 32 (leVal h / 2 ^ 256) := ⟨_, fun _ => rfl⟩
  have hr : ∀ h, P h → Represents (Point.rand (lo h) : ExtPt Fe51) (f (hi h)) := by
    intro h hh
    have h1 := C34_setElligator (lo h)
    have e : leVal h % 2 ^ 256 % 2 ^ 255 = leVal h % 2 ^ 255 := Nat.mod_mod_of_dvd _ (Nat.pow_dvd_pow 2 (by norm_num))
    have e1 : leVal (lo h) % 2 ^ 255 = leVal h % 2 ^ 255 := by rw [hlo, (halves h).1, e]
    rw [e1, hP h hh, ← hhi] at h1
    exact h1
  have h := Nat.card_le_card_of_injective (α := {h : Bytes 64 // P h})
    (β := Σ b : Bytes 32, {x : Bytes 32 // Represents (Point.rand x : ExtPt Fe51) (f b)})
    (fun h => ⟨hi h.1, lo h.1, hr h.1 h.2⟩) ?_
  · refine h.trans ?_
    rw [Nat.card_sigma]
    have h2 : ∑ b : Bytes 32, Nat.card {x : Bytes 32 // Represents (Point.rand x : ExtPt Fe51) (f b)} ≤
        ∑ _b : Bytes 32, 64 := Finset.sum_le_sum fun b _ => C59_point (f b)
    rw [Finset.sum_const, Finset.card_univ, ← Nat.card_eq_fintype_card, buf_total, smul_eq_mul] at h2
    refine h2.trans (le_of_eq ?_)
    norm_num
  · rintro ⟨a, ha⟩ ⟨b, hb⟩ hab
    have h1 : hi a = hi b := congrArg Sigma.fst hab
    have h2 : lo a = lo b := congrArg (fun z => z.2.1) hab
    clear hab
    have e1 := congrArg leVal h1
    have e2 := congrArg leVal h2
    rw [hhi, hhi, (halves a).2, (halves b).2] at e1
    rw [hlo, hlo, (halves a).1, (halves b).1] at e2
    apply Subtype.ext
    apply leVal_inj
    change leVal a = leVal b
    rw [← Nat.mod_add_div (leVal a) (2 ^ 256), ← Nat.mod_add_div (leVal b) (2 ^ 256), e1, e2]

/-- **C73** (`Derive`): no element is the result for more than one digest in `2^250`. -/
theorem C73_derive_point (g : RGroup) : Nat.card {h : Bytes 64 // Represents (deriveFrom h) g} ≤ 2 ^ 256 * 64 :=
  card_pairs _ (fun _ => g) fun h hh => represents_unique (C35_derive (fun _ => h) []).1 hh

/-- **C73** (`DeriveDalek`): no element is the result for more than one digest in `2^250`. -/
theorem C73_dalek_point (g : RGroup) : Nat.card {h : Bytes 64 // Represents (deriveDalekFrom h) g} ≤ 2 ^ 256 * 64 := by
  refine card_pairs _ (fun b => g - ellMap ((leVal b % 2 ^ 255 : ℕ) : Fp)) fun h hh => ?_
  have := represents_unique (C35_derive (fun _ => h) []).2 hh
  rw [(halves h).2]
  exact eq_sub_of_add_eq this

/-- There are `2^512` digests. -/
theorem C73_digests : Nat.card (Bytes 64) = 2 ^ 512 := by rw [buf_total, show (256 : ℕ) = 2 ^ 8 from rfl, ← pow_mul]

/-- Every digest gives an element: the counts are of sets that are not empty. -/
example (h : Bytes 64) : (∃ g, Represents (deriveFrom h) g) ∧ ∃ g, Represents (deriveDalekFrom h) g :=
  ⟨⟨_, (C35_derive (fun _ => h) []).1⟩, _, (C35_derive (fun _ => h) []).2⟩

/-- Sharper than `C59_range`: nearly half of the elements, at least, are results of `Rand`. -/
theorem C59_half : 2 ^ 251 - 1 ≤ Nat.card {g : RGroup // ∃ b : Bytes 32, Represents (Point.rand b : ExtPt Fe51) g} := by
  refine ellMap_range.trans (le_of_eq (Nat.card_congr (Equiv.subtypeEquivRight fun g => ?_)))
  constructor
  · rintro ⟨x, rfl⟩
    obtain ⟨h, h1, -⟩ := digest_of x 0
    refine ⟨leBytes 32 (leVal h), ?_⟩
    have h2 := C34_setElligator (leBytes 32 (leVal h))
    have e : leVal h % 2 ^ 256 % 2 ^ 255 = leVal h % 2 ^ 255 := Nat.mod_mod_of_dvd _ (Nat.pow_dvd_pow 2 (by norm_num))
    rw [(halves h).1, e, h1] at h2
    exact h2
  · rintro ⟨b, hg⟩
    exact ⟨_, represents_unique (C34_setElligator b) hg⟩

end Ristretto.Props
