import Verif.Proofs.CrefOverflow
import Verif.Proofs.CrefApi

/-!
# Programs of cref.c do not overflow

The checked field satisfies the laws of the field of cref.c, for a relation that contains only values without overflow.
-/

namespace Ristretto.Proofs.Cref
open Model FieldOps Model.Cref
open Sim (Flag F2)
set_option autoImplicit false

theorem addC_ok {m n : ℕ} {f g : Fe25} (hf : Fe25.bu m f) (hg : Fe25.bu n g) (h : m + n ≤ 10) : (addC f g).ok = true := by
  obtain ⟨A0, A1, A2, A3, A4, A5, A6, A7, A8, A9⟩ := hf
  obtain ⟨B0, B1, B2, B3, B4, B5, B6, B7, B8, B9⟩ := hg
  have e : m * 2 ^ 25 + n * 2 ^ 25 < 2 ^ 31 := by clear * - h; norm_num; omega
  have o : m * (2 ^ 24 + 2 ^ 16) + n * (2 ^ 24 + 2 ^ 16) < 2 ^ 31 := by clear * - h; norm_num; omega
  unfold addC
  exact okFe ((In32.of A0).add (.of B0) e) ((In32.of A1).add (.of B1) o) ((In32.of A2).add (.of B2) e)
    ((In32.of A3).add (.of B3) o) ((In32.of A4).add (.of B4) e) ((In32.of A5).add (.of B5) o)
    ((In32.of A6).add (.of B6) e) ((In32.of A7).add (.of B7) o) ((In32.of A8).add (.of B8) e)
    ((In32.of A9).add (.of B9) o)

theorem subC_ok {m n : ℕ} {f g : Fe25} (hf : Fe25.bu m f) (hg : Fe25.bu n g) (h : m + n ≤ 10) : (subC f g).ok = true := by
  obtain ⟨A0, A1, A2, A3, A4, A5, A6, A7, A8, A9⟩ := hf
  obtain ⟨B0, B1, B2, B3, B4, B5, B6, B7, B8, B9⟩ := hg
  have e : m * 2 ^ 25 + n * 2 ^ 25 < 2 ^ 31 := by clear * - h; norm_num; omega
  have o : m * (2 ^ 24 + 2 ^ 16) + n * (2 ^ 24 + 2 ^ 16) < 2 ^ 31 := by clear * - h; norm_num; omega
  unfold subC
  exact okFe ((In32.of A0).sub (.of B0) e) ((In32.of A1).sub (.of B1) o) ((In32.of A2).sub (.of B2) e)
    ((In32.of A3).sub (.of B3) o) ((In32.of A4).sub (.of B4) e) ((In32.of A5).sub (.of B5) o)
    ((In32.of A6).sub (.of B6) e) ((In32.of A7).sub (.of B7) o) ((In32.of A8).sub (.of B8) e)
    ((In32.of A9).sub (.of B9) o)

theorem negC_ok {m : ℕ} {f : Fe25} (hf : Fe25.bu m f) (h : m ≤ 10) : (negC f).ok = true := by
  obtain ⟨A0, A1, A2, A3, A4, A5, A6, A7, A8, A9⟩ := hf
  have e : m * 2 ^ 25 < 2 ^ 31 := by clear * - h; norm_num; omega
  have o : m * (2 ^ 24 + 2 ^ 16) < 2 ^ 31 := by clear * - h; norm_num; omega
  unfold negC
  exact okFe ((In32.of A0).neg e) ((In32.of A1).neg o) ((In32.of A2).neg e)
    ((In32.of A3).neg o) ((In32.of A4).neg e) ((In32.of A5).neg o)
    ((In32.of A6).neg e) ((In32.of A7).neg o) ((In32.of A8).neg e)
    ((In32.of A9).neg o)

theorem bu3 {f : Fe25} (h : Fe25.bu 3 f) : Limbs25 100663296 50528256 f := h

variable {junk : Bytes 32}

/-- No overflow on the way to `a`, whose limbs are within `n` tight units and stand for `x`. -/
def CR (n : ℕ) (a : Checked junk) (x : Fp) : Prop := ∃ f : Fe25, a = Checked.fine f ∧ Fe25.R n f x

theorem get_ok {f : ChkFe} (h : f.ok = true) : f.get = some f.val := if_pos h

theorem pack_fine {n : ℕ} {f : Fe25} (h : Fe25.bu n f) (hn : n ≤ 3) :
    Checked.pack (Checked.fine f : Checked junk) = Cref.pack f := by
  have h3 : Limbs25 100663296 50528256 f := Fe25.Limbs25.mono h (by omega) (by omega)
  show (if _ then _ else _) = _
  rw [if_pos (List.all_eq_true.2 (packC_ok h3))]

theorem fine_iszero {n : ℕ} {f : Fe25} (h : Fe25.bu n f) (hn : n ≤ 3) :
    iszero (Checked.fine f : Checked junk) = iszero f := by
  show 1 - (Checked.pack (Checked.fine f : Checked junk)).toList.foldl _ 0 = 1 - (Cref.pack f).toList.foldl _ 0
  rw [pack_fine h hn]

instance csimC : CSim (Checked junk) Fp where
  R := CR
  mono := fun ⟨f, e, h⟩ hmn => ⟨f, e, csim.mono h hmn⟩
  add := by
    rintro m n a b x y ⟨f, rfl, hf⟩ ⟨g, rfl, hg⟩ hmn
    exact ⟨_, get_ok (addC_ok hf.1 hg.1 hmn), csim.add hf hg hmn⟩
  sub := by
    rintro m n a b x y ⟨f, rfl, hf⟩ ⟨g, rfl, hg⟩ hmn
    exact ⟨_, get_ok (subC_ok hf.1 hg.1 hmn), csim.sub hf hg hmn⟩
  neg := by
    rintro m a x ⟨f, rfl, hf⟩ hm
    exact ⟨_, get_ok (negC_ok hf.1 hm), csim.neg hf hm⟩
  mul := by
    rintro a b x y ⟨f, rfl, hf⟩ ⟨g, rfl, hg⟩
    exact ⟨Cref.mul f g, (get_ok (mulC_ok (bu3 hf.1) (bu3 hg.1))).trans (congrArg some (mulC_val f g)), csim.mul hf hg⟩
  sq := by
    rintro a x ⟨f, rfl, hf⟩
    exact ⟨Cref.square f, (get_ok (squareC_ok (bu3 hf.1))).trans (congrArg some (squareC_val f)), csim.sq hf⟩
  dsq := by
    rintro a x ⟨f, rfl, hf⟩
    exact ⟨Cref.squareDouble f, (get_ok (squareDoubleC_ok (bu3 hf.1))).trans (congrArg some (squareDoubleC_val f)), csim.dsq hf⟩
  pack := by
    rintro a x ⟨f, rfl, hf⟩
    exact (pack_fine hf.1 le_rfl).trans (csim.pack hf)
  isZero := by
    rintro a x ⟨f, rfl, hf⟩
    rw [fine_iszero hf.1 le_rfl]
    exact csim.isZero hf
  cmov0 := by
    rintro m n a b x y ⟨f, rfl, hf⟩ ⟨g, rfl, hg⟩
    exact congrArg some (cmov_zero f g)
  cmov1 := by
    rintro m n a b x y ⟨f, rfl, hf⟩ ⟨g, rfl, hg⟩
    exact congrArg some (cmov_one f g)
  unpack b := ⟨Cref.unpack b, (get_ok (unpackC_ok b)).trans (congrArg some (unpackC_val b)), csim.unpack b⟩
  rZero := ⟨_, rfl, csim.rZero⟩
  rOne := ⟨_, rfl, csim.rOne⟩
  rM1 := ⟨_, rfl, csim.rM1⟩
  rI := ⟨_, rfl, csim.rI⟩
  rD := ⟨_, rfl, csim.rD⟩
  r2D := ⟨_, rfl, csim.r2D⟩
  rMagic := ⟨_, rfl, csim.rMagic⟩
  g0 := csim.g0
  g1 := csim.g1
  gTouch := csim.gTouch
  gSetBytes := csim.gSetBytes
  gN := csim.gN
  gM := csim.gM
  g2 := csim.g2
  notBoth := csim.notBoth

theorem fine_rel {n : ℕ} {f : Fe25} {x : Fp} (h : R n f x) : R n (Checked.fine f : Checked junk) x := ⟨f, rfl, h⟩

instance : LawfulTab (Checked junk) where
  base := by
    obtain ⟨r, h, hr⟩ := geBase_spec
    exact ⟨r, ⟨fine_rel h.X, fine_rel h.Y, fine_rel h.Z, fine_rel h.T⟩, hr⟩
  tab := by
    intro pos hpos j hj
    obtain ⟨e, he, ha⟩ := baseMultiples_spec pos hpos j hj
    refine ⟨⟨Checked.fine e.x, Checked.fine e.y⟩, ?_, fine_rel ha.x, fine_rel ha.y⟩
    show (baseMultiples.map _)[5 * pos + j]? = _
    rw [List.getElem?_map, he]
    rfl

theorem fine_of {n : ℕ} {a : Checked junk} {x : Fp} (h : R n a x) : a.isFine = true := by
  obtain ⟨f, rfl, -⟩ := h
  rfl

theorem ptFine_of {q : ExtPt (Checked junk)} {g : Option RGroup} (h : CPt q g) : Checked.ptFine q = true := by
  obtain ⟨r, h, -⟩ := h
  unfold Checked.ptFine
  rw [fine_of h.X, fine_of h.Y, fine_of h.Z, fine_of h.T]
  rfl

end Ristretto.Proofs.Cref
