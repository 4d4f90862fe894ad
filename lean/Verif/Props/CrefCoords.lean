import Verif.Model.CrefCoords
import Verif.Props.CrefApi

/-!
# C68: coordinates through the accessors of the C reference implementation

`IsCrefPoint q P` (Spec/Repr25.lean): the coordinates of `q` are extended coordinates of the curve point `P`, with limbs as
the package keeps them.  `Proj P X Y Z T` (Spec/Proj.lean): extended coordinates of `P`.
-/

namespace Ristretto.Props
open Model Model.Cref Proofs Proofs.Cref
set_option autoImplicit false

theorem get_set (q : ExtPt Fe25) (v : Fe25) (c : Coord) : c.get (c.set q v) = v := by cases c <;> rfl

theorem get_set_ne (q : ExtPt Fe25) (v : Fe25) (c d : Coord) (h : c ≠ d) : c.get (d.set q v) = c.get q := by
  cases c <;> cases d <;> first | exact absurd rfl h | rfl

/-- **C68** (reading): the accessors yield extended coordinates of the point, as canonical field elements. -/
theorem C68_read (q : ExtPt Fe25) (P : EPoint) (hq : IsCrefPoint q P) :
    ∃ X Y Z T : Fp, Proj P X Y Z T ∧ coordPack q .X = feBytes X ∧ coordPack q .Y = feBytes Y ∧
      coordPack q .Z = feBytes Z ∧ coordPack q .T = feBytes T := by
  obtain ⟨r, h, h'⟩ := isCref_iff.1 hq
  exact ⟨r.X, r.Y, r.Z, r.T, h'.proj, R.pack (F := Fe25) (G := Fp) h.X, R.pack (F := Fe25) (G := Fp) h.Y,
    R.pack (F := Fe25) (G := Fp) h.Z, R.pack (F := Fe25) (G := Fp) h.T⟩

/-- **C68** (writing): when extended coordinates of a point are written through the four accessors, in any order and as any
32 bytes that stand for them, the variable holds the point afterwards, whatever it held before. -/
theorem C68_write (q : ExtPt Fe25) (P : EPoint) (bX bY bZ bT : Bytes 32)
    (h : Proj P (feOfBytes bX) (feOfBytes bY) (feOfBytes bZ) (feOfBytes bT)) (cs : List (Coord × Bytes 32))
    (hcs : cs.Perm [(.X, bX), (.Y, bY), (.Z, bZ), (.T, bT)]) : IsCrefPoint (coordUnpacks q cs) P := by
  have key : coordUnpacks q cs = ⟨unpack bX, unpack bY, unpack bZ, unpack bT⟩ := by
    have hp : ∀ (cs : List (Coord × Bytes 32)) (q : ExtPt Fe25), (cs.map Prod.fst).Nodup → ∀ c v, (c, v) ∈ cs →
        c.get (coordUnpacks q cs) = unpack v := by
      intro cs
      have keep : ∀ (cs : List (Coord × Bytes 32)) (q : ExtPt Fe25) (c : Coord), c ∉ cs.map Prod.fst →
          c.get (coordUnpacks q cs) = c.get q := by
        intro cs
        induction cs with
        | nil => intros; rfl
        | cons d cs ih =>
          intro q c hc
          simp only [List.map_cons, List.mem_cons, not_or] at hc
          change c.get (coordUnpacks (coordUnpack q d.1 d.2) cs) = _
          rw [ih _ _ hc.2]
          exact get_set_ne q _ c d.1 hc.1
      induction cs with
      | nil => intro q _ c v h; cases h
      | cons d cs ih =>
        intro q hn c v hm
        rw [List.map_cons, List.nodup_cons] at hn
        rcases List.mem_cons.1 hm with h | h
        · subst h
          change c.get (coordUnpacks (coordUnpack q c v) cs) = _
          rw [keep _ _ _ hn.1]
          exact get_set q _ c
        · exact ih _ hn.2 c v h
    have hn : (cs.map Prod.fst).Nodup := (hcs.map Prod.fst).nodup_iff.2 (by simp)
    have hm : ∀ c v, (c, v) ∈ [(Coord.X, bX), (.Y, bY), (.Z, bZ), (.T, bT)] → c.get (coordUnpacks q cs) = unpack v :=
      fun c v hv => hp cs q hn c v (hcs.mem_iff.2 hv)
    have e1 := hm .X bX (by simp)
    have e2 := hm .Y bY (by simp)
    have e3 := hm .Z bZ (by simp)
    have e4 := hm .T bT (by simp)
    generalize coordUnpacks q cs = r at e1 e2 e3 e4
    cases r
    simp only [Coord.get] at e1 e2 e3 e4
    rw [e1, e2, e3, e4]
  rw [key]
  refine isCref_iff.2 ⟨⟨feOfBytes bX, feOfBytes bY, feOfBytes bZ, feOfBytes bT⟩, ⟨?_, cFe_unpack bY, cFe_unpack bZ,
    cFe_unpack bT⟩, ⟨trivial, trivial, trivial, trivial, h⟩⟩
  exact R.mono (F := Fe25) (G := Fp) (cFe_unpack bX)

/-- **C68** (copying): a point whose coordinates are copied through the accessors packs to the same bytes. -/
theorem C68_copy (q r : ExtPt Fe25) (P : EPoint) (hP : P ∈ Even) (hq : IsCrefPoint q P) :
    gePack (coordUnpacks r [(.X, coordPack q .X), (.Y, coordPack q .Y), (.Z, coordPack q .Z), (.T, coordPack q .T)])
      = gePack q ∧ gePack q = encode (cls P hP) := by
  obtain ⟨X, Y, Z, T, h, h1, h2, h3, h4⟩ := C68_read q P hq
  have hf : ∀ x : Fp, feOfBytes (feBytes x) = x := fun x => by
    unfold feBytes feOfBytes
    have hp : p < 2 ^ 255 := by norm_num [p]
    have hv := ZMod.val_lt x
    rw [leVal_littleEndian, Nat.mod_eq_of_lt (lt_trans hv (lt_trans hp (by norm_num))), Nat.mod_eq_of_lt (lt_trans hv hp)]
    exact ZMod.natCast_zmod_val x
  have := C68_write r P (coordPack q .X) (coordPack q .Y) (coordPack q .Z) (coordPack q .T) (by rw [h1, h2, h3, h4, hf, hf, hf, hf]; exact h) _ (List.Perm.refl _)
  rw [C54_pack _ P hP this, C54_pack q P hP hq]
  exact ⟨rfl, rfl⟩

/-- The base point of the package meets the hypotheses. -/
example : IsCrefPoint geBase stdBase ∧ stdBase ∈ Even ∧
    ∃ X Y Z T : Fp, Proj stdBase X Y Z T ∧ coordPack geBase .Z = feBytes Z := by
  refine ⟨C63_base.1, stdBase_even, ?_⟩
  obtain ⟨X, Y, Z, T, h, _, _, h3, _⟩ := C68_read geBase stdBase C63_base.1
  exact ⟨X, Y, Z, T, h, h3⟩

end Ristretto.Props
