import Verif.Props.Machine
import Verif.Proofs.CrefMachine

/-!
# C51–C54: the C reference implementation (cref/cref.c, cref/cref.go)

`Verif.Model.Cref` models the C functions reachable from the Go wrapper.  `crun` runs a program (a list of
method calls on variables, Model/CrefMachine.lean) with that model, `carun` (Spec/CrefMachine.lean) on
mathematical objects.
-/

namespace Ristretto.Props
open Model Proofs Model.Cref
set_option autoImplicit false

/-! ## C51: programs -/

/-- **C51**: every program over the API of `cref` returns what the abstract machine on GF(2^255-19), the Ristretto group
and `ℤ/l` returns. -/
theorem C51_refinement (prog : List CCmd) : (crun CMem.init prog).2 = (carun CState.init prog).2 :=
  (Proofs.Cref.crun_rel prog Proofs.Cref.cRel_init).2

/-- A program whose outputs the abstract machine tells: twice the image of 1 under Elligator, computed by addition and
by scalar multiplication, has the same encoding. -/
example : ∃ b, (carun CState.init
    [.feUnpack 0 (leBytes 32 1), .geElligator 0 0, .geAdd 1 0 0, .scUnpack 0 (leBytes 32 2), .geScalarMult 2 0 0,
      .gePack 1, .gePack 2]).2 = [.unit, .unit, .unit, .unit, .unit, .bytes b, .bytes b] := by
  refine ⟨encode (ellMap (feOfBytes (leBytes 32 1)) + ellMap (feOfBytes (leBytes 32 1))), ?_⟩
  have h2 : leVal (leBytes 32 2) % 2 ^ 253 = 2 := by decide +kernel
  have h2' : ((2 : ℕ) : ZMod l).val = 2 := by
    rw [ZMod.val_natCast]; exact Nat.mod_eq_of_lt (by decide +kernel)
  simp only [carun, caexec, CState.setFe, CState.setPt, CState.setSc, if_true, addO, smulO, h2, encO, Option.getD_some,
    OfNat.ofNat_ne_one, OfNat.ofNat_ne_zero, one_ne_zero, if_false, h2', two_nsmul, reduceIte]
  rfl

/-! ## C52: agreement with the Go package -/

/-- The contents of the variables of the two abstract machines agree. -/
structure Same (fe : ℕ → Bytes 32) (c : CState) (a : AState) : Prop where
  fes : ∀ k, c.fes k = feOfBytes (fe k)
  pts : ∀ k, c.pts k = a.pts k
  scs : ∀ k, c.scs k = a.scs k

theorem leVal_littleEndian (x : ℕ) : leVal (littleEndian x) = x % 256 ^ 32 := leVal_leBytes 32 x

theorem feBytes_feOfBytes (b : Bytes 32) (h : leVal b < p) : feBytes (feOfBytes b) = b := by
  apply leVal_inj
  unfold feBytes feOfBytes
  have hp : p < 2 ^ 255 := by norm_num [p]
  rw [leVal_littleEndian, ZMod.val_natCast, Nat.mod_eq_of_lt (a := leVal b) (lt_trans h hp), Nat.mod_eq_of_lt h,
    Nat.mod_eq_of_lt (lt_trans h (lt_trans hp (by norm_num)))]

theorem same_setPt {fe : ℕ → Bytes 32} {c : CState} {a : AState} (h : Same fe c a) (g : ℕ) {v w : Option RGroup}
    (e : v = w) : Same fe (c.setPt g v) (a.setPt g w) :=
  ⟨h.fes, fun k => by simp only [CState.setPt, AState.setPt, h.pts k, e], h.scs⟩

theorem same_setSc {fe : ℕ → Bytes 32} {c : CState} {a : AState} (h : Same fe c a) (g : ℕ) (v : ZMod l) :
    Same fe (c.setSc g v) (a.setSc g v) :=
  ⟨h.fes, h.pts, fun k => by simp only [CState.setSc, AState.setSc, h.scs k]⟩

theorem same_run (sha256 : List UInt8 → Bytes 32) (sha512 : List UInt8 → Bytes 64) : ∀ (prog : List CCmd),
    (∀ g buf, CCmd.geUnpack g buf ∈ prog → leVal buf < p) → ∀ (fe : ℕ → Bytes 32) (c : CState) (a : AState), Same fe c a →
    (arun sha256 sha512 a (toGo fe prog)).map Prod.snd = some (seen prog (carun c prog).2) := by
  intro prog
  induction prog with
  | nil => intro _ fe c a _; rfl
  | cons cmd cs ih =>
    intro hp fe c a h
    have ih' := ih (fun g buf hm => hp g buf (List.mem_cons_of_mem _ hm))
    have key : ∀ (fe : ℕ → Bytes 32) (c' : CState) (a' : AState) (o : Out) (go : Cmd), Same fe c' a' →
        aexec sha256 sha512 a go = some (a', o) →
        (arun sha256 sha512 a (go :: toGo fe cs)).map Prod.snd = some (o :: seen cs (carun c' cs).2) := by
      intro fe c' a' o go hs he
      have := ih' fe c' a' hs
      rw [arun, he]
      cases hr : arun sha256 sha512 a' (toGo fe cs) with
      | none => rw [hr] at this; simp at this
      | some r =>
        rw [hr] at this
        simp only [Option.map_some, Option.some.injEq] at this
        simp [hr, this]
    cases cmd with
    | feUnpack f buf =>
      refine ih' _ (c.setFe f (feOfBytes buf)) a ⟨fun k => ?_, h.pts, h.scs⟩
      simp only [CState.setFe]
      split
      · rfl
      · exact h.fes k
    | fePack f => exact ih' _ c a h
    | geUnpack g buf =>
      have e : crefDecode buf = decode buf := by
        unfold crefDecode; rw [feBytes_feOfBytes buf (hp g buf (by simp))]
      have := key fe (c.setPt g (crefDecode buf)) (a.setPt g (decode buf)) (.bool (decode buf).isSome) (.pSetBytes g buf)
        (same_setPt h g e) (by simp only [aexec])
      simp only [toGo, carun, caexec, seen]
      rw [this, e]
      cases decode buf <;> rfl
    | gePack g =>
      have := key fe c a (.bytes (encO (a.pts g)).toList) (.pBytes g) h (by simp only [aexec])
      simp only [toGo, carun, caexec, seen]
      rw [this, h.pts]
    | geElligator g f =>
      have := key fe (c.setPt g (some (ellMap (c.fes f)))) (a.setPt g (some (ellMap (feOfBytes (fe f))))) .unit
        (.pSetElligator g (fe f)) (same_setPt h g (by rw [h.fes])) (by simp only [aexec])
      simpa only [toGo, carun, caexec, seen] using this
    | geNeg g x =>
      have := key fe (c.setPt g (negO (c.pts x))) (a.setPt g (negO (a.pts x))) .unit
        (.pNeg g x) (same_setPt h g (by rw [h.pts])) (by simp only [aexec])
      simpa only [toGo, carun, caexec, seen] using this
    | geAdd g x y =>
      have := key fe (c.setPt g (addO (c.pts x) (c.pts y))) (a.setPt g (addO (a.pts x) (a.pts y))) .unit
        (.pAdd g x y) (same_setPt h g (by rw [h.pts, h.pts])) (by simp only [aexec])
      simpa only [toGo, carun, caexec, seen] using this
    | geDouble g x =>
      have := key fe (c.setPt g (dblO (c.pts x))) (a.setPt g (dblO (a.pts x))) .unit
        (.pDouble g x) (same_setPt h g (by rw [h.pts])) (by simp only [aexec])
      simpa only [toGo, carun, caexec, seen] using this
    | geScalarMult g x s =>
      have := key fe (c.setPt g (smulO (c.scs s) (c.pts x))) (a.setPt g (smulO (a.scs s) (a.pts x))) .unit
        (.pScalarMult g x s) (same_setPt h g (by rw [h.pts, h.scs])) (by simp only [aexec])
      simpa only [toGo, carun, caexec, seen] using this
    | scUnpack s buf =>
      have := key fe (c.setSc s ((leVal buf % 2 ^ 253 : ℕ) : ZMod l)) (a.setSc s ((leVal buf % 2 ^ 253 : ℕ) : ZMod l)) .unit
        (.sSetBytes s buf) (same_setSc h s _) (by simp only [aexec])
      simpa only [toGo, carun, caexec, seen] using this
    | scPack s =>
      have := key fe c a (.bytes (scBytes (a.scs s)).toList) (.sBytes s) h (by simp only [aexec])
      simp only [toGo, carun, caexec, seen]
      rw [this, h.scs]

/-- **C52**: the same program in the Go package and in the C reference implementation returns the same results, provided the
buffers given to `GroupGe.Unpack` are below 2^255-19. -/
theorem C52_agree (sha512 : List UInt8 → Bytes 64) (prog : List CCmd)
    (h : ∀ g buf, CCmd.geUnpack g buf ∈ prog → leVal buf < p) :
    (run (goEnv sha512) Mem.init (toGo (fun _ => Vector.replicate 32 0) prog)).map Prod.snd =
      some (seen prog (crun CMem.init prog).2) := by
  rw [C42_refinement, C51_refinement]
  refine same_run _ _ prog h _ _ _ ⟨fun k => ?_, fun _ => rfl, fun _ => rfl⟩
  show (0 : Fp) = _
  unfold feOfBytes
  rw [show leVal (Vector.replicate 32 (0 : UInt8)) % 2 ^ 255 = 0 by decide +kernel]
  rfl

/-- The programs compared by the tests of the package are covered: `Elligator`, `Add`, `Double`, `ScalarMult`, and
decoding of a canonical buffer. -/
example :
    (∀ g buf, CCmd.geUnpack g buf ∈ [CCmd.geUnpack 0 (leBytes 32 (p - 1)), .geAdd 1 0 0, .gePack 1] → leVal buf < p) ∧
    toGo (fun _ => Vector.replicate 32 0)
      [.feUnpack 7 (leBytes 32 5), .geElligator 0 7, .scUnpack 1 (leBytes 32 3), .geScalarMult 2 0 1, .gePack 2] =
      [.pSetElligator 0 (leBytes 32 5), .sSetBytes 1 (leBytes 32 3), .pScalarMult 2 0 1, .pBytes 2] := by
  constructor
  · intro g buf hm
    have : buf = leBytes 32 (p - 1) := by simp at hm; exact hm.2
    subst this
    decide +kernel
  · rfl

/-! ## C53: what `GroupGe.Unpack` accepts -/

theorem encode_zero : encode 0 = Vector.replicate 32 0 := by
  rw [← Deg.ristretto (F := Fp) (q := ⟨0, 0, 0, 0⟩) (deg_zero (F := Fp))]
  exact leVal_inj ((ristretto_x_zero (F := Fp) (deg_zero (F := Fp)).toSmall rfl).trans (by decide +kernel))

theorem encode_lt (g : RGroup) : leVal (encode g) < p := by
  obtain ⟨-, -, s, -, -, h⟩ := encodes_encode g
  rw [h]
  exact ZMod.val_lt s

/-- **C53**: `GroupGe.Unpack` accepts a buffer for the group element `g` (returns 0, and `Pack` then returns the encoding of
`g`) exactly when the buffer, without its top bit and modulo 2^255-19, is the canonical encoding of `g`; it
returns -1 for all other buffers. -/
theorem C53_unpack (buf : Bytes 32) :
    (∀ g, leVal buf % 2 ^ 255 % p = leVal (encode g) →
      (crun CMem.init [.geUnpack 0 buf, .gePack 0]).2 = [.int 0, .bytes (encode g)]) ∧
    ((∀ g, leVal buf % 2 ^ 255 % p ≠ leVal (encode g)) →
      (crun CMem.init [.geUnpack 0 buf, .gePack 0]).2 = [.int (-1), .bytes (Vector.replicate 32 0)]) := by
  have hv : leVal (feBytes (feOfBytes buf)) = leVal buf % 2 ^ 255 % p := by
    unfold feBytes feOfBytes
    rw [leVal_littleEndian, ZMod.val_natCast, Nat.mod_eq_of_lt]
    exact lt_trans (Nat.mod_lt _ (by norm_num [p])) (by norm_num [p])
  constructor
  · intro g hg
    have e : crefDecode buf = some g := by
      unfold crefDecode
      rw [decode_eq_some]
      exact leVal_inj (hv.trans hg)
    rw [C51_refinement]
    simp [carun, caexec, CState.setPt, e, encO]
  · intro hn
    have e : crefDecode buf = none := by
      unfold crefDecode
      rw [decode_eq_none]
      intro g hg
      exact hn g (by rw [← hv, hg])
    rw [C51_refinement]
    simp [carun, caexec, CState.setPt, e, encO, encode_zero]

/-- **C53**: unlike `SetBytes` of the Go package, `Unpack` accepts buffers that are not canonical: the number p, and zero with
the top bit set, for the neutral element. -/
theorem C53_noncanonical :
    ∀ buf ∈ [leBytes 32 p, leBytes 32 (2 ^ 255)],
      (crun CMem.init [.geUnpack 0 buf, .gePack 0]).2 = [.int 0, .bytes (Vector.replicate 32 0)] ∧
      ∀ sha512, (run (goEnv sha512) Mem.init [.pSetBytes 0 buf]).map Prod.snd = some [.bool false] := by
  have key : ∀ buf : Bytes 32, leVal buf % 2 ^ 255 % p = 0 → p ≤ leVal buf →
      (crun CMem.init [.geUnpack 0 buf, .gePack 0]).2 = [.int 0, .bytes (Vector.replicate 32 0)] ∧
      ∀ sha512, (run (goEnv sha512) Mem.init [.pSetBytes 0 buf]).map Prod.snd = some [.bool false] := by
    intro buf h1 h2
    have h0 : leVal (Vector.replicate 32 (0 : UInt8)) = 0 := by decide +kernel
    refine ⟨?_, fun sha512 => ?_⟩
    · rw [← encode_zero]
      exact (C53_unpack buf).1 0 (by rw [encode_zero, h0, h1])
    · have e : decode buf = none := decode_eq_none.2 fun g hg => by
        have := encode_lt g
        rw [hg] at this
        omega
      rw [C42_refinement]
      simp [arun, aexec, e]
  intro buf hb
  simp only [List.mem_cons, List.not_mem_nil, or_false] at hb
  rcases hb with rfl | rfl
  · exact key _ (by decide +kernel) (by decide +kernel)
  · exact key _ (by decide +kernel) (by decide +kernel)

/-- **C53**: every buffer that `SetBytes` accepts is accepted by `Unpack`, for the same group element. -/
theorem C53_canonical (buf : Bytes 32) (g : RGroup) (h : decode buf = some g) :
    (crun CMem.init [.geUnpack 0 buf, .gePack 0]).2 = [.int 0, .bytes (encode g)] := by
  refine (C53_unpack buf).1 g ?_
  rw [decode_eq_some.1 h]
  have h1 := encode_lt g
  have hp : p < 2 ^ 255 := by norm_num [p]
  rw [Nat.mod_eq_of_lt (a := leVal (encode g)) (lt_trans h1 hp), Nat.mod_eq_of_lt h1]

/-- The second case of `C53_unpack` occurs: 1 is negative (odd), so no encoding. -/
example : ∀ g, leVal (leBytes 32 1) % 2 ^ 255 % p ≠ leVal (encode g) := by
  intro g hg
  obtain ⟨P, hP, s, -, ⟨Q, -, -, -, -, hs, -⟩, h⟩ := encodes_encode g
  rw [← hg, show leVal (leBytes 32 1) % 2 ^ 255 % p = 1 by decide +kernel] at h
  refine hs ?_
  unfold IsNeg
  rw [← h]

/-! ## C54: points of the curve -/

theorem isCref_iff {q : ExtPt Fe25} {P : EPoint} :
    IsCrefPoint q P ↔ ∃ r : ExtPt Fp, Proofs.Cref.CP q r ∧ IsPt r P := by
  constructor
  · intro h
    refine ⟨⟨feVal25 q.X, feVal25 q.Y, feVal25 q.Z, feVal25 q.T⟩, ⟨⟨h.limbX, rfl⟩, ⟨Fe25.bu_tight h.limbY, rfl⟩,
      ⟨Fe25.bu_tight h.limbZ, rfl⟩, ⟨Fe25.bu_tight h.limbT, rfl⟩⟩, ⟨trivial, trivial, trivial, trivial, h.proj⟩⟩
  · rintro ⟨r, h, h'⟩
    have tight : ∀ {a : Fe25}, Fe25.bu 1 a → Tight25 a := by
      intro a ha
      unfold Fe25.bu at ha
      unfold Tight25
      simpa using ha
    refine ⟨h.X.1, tight h.Y.1, tight h.Z.1, tight h.T.1, ?_⟩
    rw [show feVal25 q.X = r.X from h.X.2, show feVal25 q.Y = r.Y from h.Y.2, show feVal25 q.Z = r.Z from h.Z.2,
      show feVal25 q.T = r.T from h.T.2]
    exact h'.proj

/-- **C54**: `Add`, `Double` and `Neg` add, double and negate points of the curve (all of them, not only the even ones), and
the limbs of the results stay within the bounds required of the arguments. -/
theorem C54_points (q r : ExtPt Fe25) (P Q : EPoint) (hq : IsCrefPoint q P) (hr : IsCrefPoint r Q) :
    IsCrefPoint (geAdd q r) (P + Q) ∧ IsCrefPoint (geDouble q) (P + P) ∧ IsCrefPoint (geNeg q) (-P) := by
  obtain ⟨q', h1, h2⟩ := isCref_iff.1 hq
  obtain ⟨r', h3, h4⟩ := isCref_iff.1 hr
  exact ⟨isCref_iff.2 ⟨_, h1.add h3, add_spec h2 h4⟩, isCref_iff.2 ⟨_, h1.double, double_spec h2⟩,
    isCref_iff.2 ⟨_, h1.neg, neg_spec h2⟩⟩

/-- **C54**: `ScalarMult` multiplies points of the curve by every number below 2^254 whose digits in radix 256 are given. -/
theorem C54_scalarMult (q : ExtPt Fe25) (P : EPoint) (hq : IsCrefPoint q P) (s : Bytes 32) (hs : leVal s < 2 ^ 254) :
    IsCrefPoint (geScalarMult q (s.map UInt8.toUInt32)) (leVal s • P) := by
  obtain ⟨q', h1, h2⟩ := isCref_iff.1 hq
  exact isCref_iff.2 ⟨_, h1.mult s, Proofs.Cref.fullMult_spec h2 s hs⟩

/-- **C54**: `Pack` of a point in the domain of Ristretto writes the encoding of its class. -/
theorem C54_pack (q : ExtPt Fe25) (P : EPoint) (hP : P ∈ Even) (hq : IsCrefPoint q P) : gePack q = encode (cls P hP) := by
  obtain ⟨q', h1, h2⟩ := isCref_iff.1 hq
  exact h1.pack.trans (Holds.bytes (F := Fp) ⟨P, hP, h2, rfl⟩)

/-- The neutral element and the image of 1 under Elligator satisfy the hypotheses. -/
example : IsCrefPoint Cref.neutral 0 ∧ ∃ (P : EPoint) (hP : P ∈ Even), cls P hP = ellMap 1 ∧
    IsCrefPoint (geElligator CrefOps.one) P := by
  refine ⟨isCref_iff.2 ⟨_, .neutral, zero_spec⟩, ?_⟩
  obtain ⟨r, h, P, hP, h1, h2⟩ := Proofs.Cref.cPt_elligator (a := (CrefOps.one : Fe25)) (x := 1) Proofs.Cref.rOne
  exact ⟨P, hP, h2, isCref_iff.2 ⟨r, h, h1⟩⟩

end Ristretto.Props
