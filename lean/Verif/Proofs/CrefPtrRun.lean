import Verif.Proofs.CrefPtrBase
import Verif.Spec.CrefPtr

/-!
Programs of Model/CrefPtr.lean.
-/

set_option autoImplicit false
set_option linter.unusedSimpArgs false
set_option linter.unusedSectionVars false

namespace Ristretto.Proofs.CrefPtr
open Ristretto Ristretto.Model Ristretto.Model.CrefPtr
open Ristretto.Model.Cref (CrefOps CrefTab AffPt Sc toByte cnot Coord FeRef COut CMem)
open Ristretto.Spec.CrefPtr (cells reads writes SetBeforeRead setAfter effect effects)

section
variable {F : Type} [O : CrefOps F] [T : CrefTab F]

/-- Memory holds the values of the cells in `D`. -/
structure Rep (D : FeRef → Prop) (m : CMem F) (st : PState F) : Prop where
  cell : ∀ a, D a → st.mem (adr a) = some (m.read a)
  scs : ∀ s, st.scs s = m.scs s

theorem adr_inj {a b : FeRef} (h : adr a = adr b) : a = b := by
  rcases a with n | ⟨g, c⟩ <;> rcases b with n' | ⟨g', c'⟩
  · simp [adr] at h; rw [h]
  · cases c' <;> simp [adr] at h
  · cases c <;> simp [adr] at h
  · cases c <;> cases c' <;> simp [adr] at h <;> rw [h]

theorem adr_hi (hi : Nat) (a : FeRef) : Hi hi (adr a).obj := by
  rcases a with n | ⟨g, c⟩
  · exact hi_fe _ _
  · cases c <;> exact hi_pt _ _

theorem read_write (m : CMem F) (v : F) (r a : FeRef) : (m.write v r).read a = if a = r then v else m.read a := by
  rcases a with n | ⟨g, c⟩ <;> rcases r with n' | ⟨g', c'⟩
  · simp [CMem.write, CMem.read, CMem.setFe]
  · simp [CMem.write, CMem.read, CMem.setPt]
  · simp [CMem.write, CMem.read, CMem.setFe]
  · by_cases h : g = g'
    · subst h
      cases c <;> cases c' <;> simp [CMem.write, CMem.read, CMem.setPt, Coord.get, Coord.set]
    · simp [CMem.write, CMem.read, CMem.setPt, h]

theorem write_scs (m : CMem F) (v : F) (r : FeRef) : (m.write v r).scs = m.scs := by
  rcases r with n | ⟨g, c⟩ <;> rfl

/-- A cell is written. -/
theorem Rep.write {D : FeRef → Prop} {m : CMem F} {st : PState F} (h : Rep D m st) {hi : Nat} {r : FeRef} {V : F} {M : PMem F}
    (hM : Out hi (st.mem.upd (adr r) V) M) : Rep (fun a => D a ∨ a ∈ [r]) (m.write V r) { st with mem := M } := by
  refine ⟨fun a ha => ?_, fun s => by rw [write_scs]; exact h.scs s⟩
  have e := hM (adr a).obj (adr_hi _ a) (adr a).off
  have e : M (adr a) = st.mem.upd (adr r) V (adr a) := e
  show M (adr a) = _
  rw [e, read_write, upd_at]
  by_cases har : a = r
  · subst har; simp
  · rw [if_neg har, if_neg (fun e => har (adr_inj e))]
    exact h.cell a (ha.resolve_right (by simpa using har))

/-- Nothing is written. -/
theorem Rep.keep {D : FeRef → Prop} {m : CMem F} {st : PState F} (h : Rep D m st) {hi : Nat} {M : PMem F} (hM : Out hi st.mem M) :
    Rep (fun a => D a ∨ a ∈ ([] : List FeRef)) m { st with mem := M } := by
  refine ⟨fun a ha => ?_, h.scs⟩
  have e : M (adr a) = st.mem (adr a) := hM (adr a).obj (adr_hi _ a) (adr a).off
  show M (adr a) = _
  rw [e]
  exact h.cell a (ha.resolve_right (by simp))

/-- A point is written. -/
theorem Rep.setPt {D : FeRef → Prop} {m : CMem F} {st : PState F} (h : Rep D m st) {hi : Nat} {g : Nat} {V : ExtPt F} {M : PMem F}
    (hM : Out hi (CrefPtr.setPt (.pt g) V st.mem) M) : Rep (fun a => D a ∨ a ∈ cells g) (m.setPt g V) { st with mem := M } := by
  refine ⟨fun a ha => ?_, h.scs⟩
  have e : M (adr a) = CrefPtr.setPt (.pt g) V st.mem (adr a) := hM (adr a).obj (adr_hi _ a) (adr a).off
  show M (adr a) = _
  rw [e]
  rcases a with n | ⟨g', c⟩
  · have := h.cell _ (ha.resolve_right (by simp [cells]))
    simp only [adr] at this ⊢
    rw [setPt_other _ _ _ _ _ (by simp), this]
    rfl
  · by_cases hg : g' = g
    · subst hg
      obtain ⟨a, b, c', d⟩ := HasPt.set (.pt g') V st.mem
      cases c
      · simp only [adr]; rw [a]; simp [CMem.read, CMem.setPt, Coord.get]
      · simp only [adr]; rw [b]; simp [CMem.read, CMem.setPt, Coord.get]
      · simp only [adr]; rw [c']; simp [CMem.read, CMem.setPt, Coord.get]
      · simp only [adr]; rw [d]; simp [CMem.read, CMem.setPt, Coord.get]
    · have := h.cell _ (ha.resolve_right (by simp [cells, hg]))
      have e2 : CrefPtr.setPt (.pt g) V st.mem (adr (.coord g' c)) = st.mem (adr (.coord g' c)) := by
        cases c <;> exact setPt_other _ _ _ _ _ (by simp [hg])
      rw [e2, this]
      simp [CMem.read, CMem.setPt, hg]

theorem Rep.pt {D : FeRef → Prop} {m : CMem F} {st : PState F} (h : Rep D m st) {g : Nat} (hg : ∀ a ∈ cells g, D a) : HasPt st.mem (.pt g) (m.pts g) :=
  ⟨h.cell (.coord g .X) (hg _ (by simp [cells])), h.cell (.coord g .Y) (hg _ (by simp [cells])), h.cell (.coord g .Z) (hg _ (by simp [cells])),
    h.cell (.coord g .T) (hg _ (by simp [cells]))⟩

theorem wp_mem {E : FeRef → Prop} {m : CMem F} {st : PState F} {W : PMem F → Prop} {f : Option (PMem F)}
    (hf : Wp f W) (hk : ∀ M, W M → Rep E m { st with mem := M }) :
    Wp (f.bind fun M => some (({ st with mem := M } : PState F), COut.unit)) (fun r => r.2 = .unit ∧ Rep E m r.1) := by
  obtain ⟨M, rfl, hM⟩ := hf
  exact wp_some ⟨rfl, hk M hM⟩

theorem wp_memI {E : FeRef → Prop} {m : CMem F} {st : PState F} {i : Int32} {W : PMem F → Prop} {f : Option (Int32 × PMem F)}
    (hf : Wp f (fun a => a.1 = i ∧ W a.2)) (hk : ∀ M, W M → Rep E m { st with mem := M }) :
    Wp (f.bind fun a => some (({ st with mem := a.2 } : PState F), COut.int a.1)) (fun r => r.2 = .int i ∧ Rep E m r.1) := by
  obtain ⟨⟨_, M⟩, rfl, rfl, hM⟩ := hf
  exact wp_some ⟨rfl, hk M hM⟩

theorem op1_wp (f : F → F) (r : Addr) (x : Arg F) (m : PMem F) (X : F) (hx : m.ld x = some X) : Wp (op1 f r x m) (Out 0 (m.upd r (f X))) := by
  unfold op1
  rw [hx]
  exact wp_some (Out.refl _ _)

theorem op2_wp (f : F → F → F) (r : Addr) (x y : Arg F) (m : PMem F) (X Y : F) (hx : m.ld x = some X) (hy : m.ld y = some Y) :
    Wp (op2 f r x y m) (Out 0 (m.upd r (f X Y))) := by
  unfold op2
  rw [hx, hy]
  exact wp_some (Out.refl _ _)

theorem iseq_wp (x : Obj) (o : Nat) (y : Arg F) (m : PMem F) (X Y : F) (hx : m ⟨x, o⟩ = some X) (hy : (m.decl 0 1).ld y = some Y) (hhx : Hi 1 x) :
    Wp (iseq (.adr ⟨x, o⟩) y m) (fun a => a.1 = Cref.iseq X Y ∧ Out 1 m a.2) := by
  rw [iseq_eq, ld_adr, decl_hi _ _ _ _ _ hhx, hx, hy]
  exact wp_some ⟨rfl, ((Out.refl _ _).decl _ _ le_rfl).upd _ _ _ (by omega)⟩

theorem Rep.none {D : FeRef → Prop} {m : CMem F} {st : PState F} (h : Rep D m st) : Rep (fun a => D a ∨ a ∈ ([] : List FeRef)) m st :=
  ⟨fun a ha => h.cell a (ha.resolve_right (by simp)), h.scs⟩

theorem multi_wp (g : Nat) (m0 : PMem F) (scs : Nat → Sc) (m : CMem F) (hs : ∀ s, scs s = m.scs s) (D : FeRef → Prop)
    (xs : List (Nat × Nat)) : ∀ (V : ExtPt F) (M : PMem F), (∀ x ∈ xs, x.1 ≠ g → HasPt m0 (.pt x.1) (m.pts x.1)) → Out 193 (CrefPtr.setPt (.pt g) V m0) M →
    ∃ W, xs.foldl (fun m xs => m.setPt g (Cref.geAdd (m.pts g) (Cref.geScalarMult (m.pts xs.1) (m.scs xs.2)))) (m.setPt g V) = m.setPt g W ∧
      Wp (xs.foldlM (multiStep scs (.pt g)) M) (Out 193 (CrefPtr.setPt (.pt g) W m0)) := by
  induction xs with
  | nil => intro V M _ h; exact ⟨V, rfl, wp_some h⟩
  | cons x xs ih =>
    intro V M hx h
    have hX : HasPt (CrefPtr.setPt (.pt g) V m0) (.pt x.1) ((m.setPt g V).pts x.1) := by
      by_cases e : x.1 = g
      · rw [e]
        have := HasPt.set (.pt g) V m0
        simpa [CMem.setPt] using this
      · have := (hx x (by simp) e).other (Out.refl 0 (CrefPtr.setPt (.pt g) V m0)) (hi_pt _ _) (by simp [e])
        simpa [CMem.setPt, e] using this
    have hstep := multiStep_wp scs (.pt g) m0 (hi_pt _ _) V x _ M h hX
    obtain ⟨M1, e1, hM1⟩ := hstep
    obtain ⟨W, hW, hwp⟩ := ih _ M1 (fun y hy => hx y (by simp [hy])) hM1
    refine ⟨W, ?_, ?_⟩
    · rw [List.foldl_cons, ← hW]
      congr 1
      simp only [CMem.setPt, hs, if_true]
      congr 1
      funext k
      split <;> rfl
    · rw [List.foldlM_cons, e1]
      exact hwp

theorem pexec_ok (hT : T.tab.length = 425) (D : FeRef → Prop) (m : CMem F) (st : PState F) (h : Rep D m st) (c : QCmd) (hc : ∀ a ∈ reads c, D a) :
    Wp (pexec st c) (fun r => r.2 = (effect m c).2 ∧ Rep (fun a => D a ∨ a ∈ writes c) (effect m c).1 r.1) := by
  have rd : ∀ a, a ∈ reads c → st.mem (adr a) = some (m.read a) := fun a ha => h.cell a (hc a ha)
  cases c with
  | setSc s v =>
    refine wp_some ⟨rfl, fun a ha => h.cell a (ha.resolve_right (by simp [writes])), fun k => ?_⟩
    show (if k = s then v else st.scs k) = if k = s then v else m.scs k
    rw [h.scs]
  | feUnpack r buf => exact wp_some ⟨rfl, h.write (Out.refl 0 _)⟩
  | fePack x =>
    have e := rd x (by simp [reads])
    simp only [pexec, CrefPtr.pack, ld_adr, e]
    exact wp_some ⟨rfl, h.none⟩
  | feSetOne r => exact wp_some ⟨rfl, h.write (Out.refl 0 _)⟩
  | feSetZero r => exact wp_some ⟨rfl, h.write (Out.refl 0 _)⟩
  | feNeg r x => exact wp_mem (op1_wp _ _ _ _ _ (rd x (by simp [reads]))) fun M hM => h.write hM
  | feSquare r x => exact wp_mem (op1_wp _ _ _ _ _ (rd x (by simp [reads]))) fun M hM => h.write hM
  | feSquareDouble r x => exact wp_mem (op1_wp _ _ _ _ _ (rd x (by simp [reads]))) fun M hM => h.write hM
  | feAdd r x y => exact wp_mem (op2_wp _ _ _ _ _ _ _ (rd x (by simp [reads])) (rd y (by simp [reads]))) fun M hM => h.write hM
  | feSub r x y => exact wp_mem (op2_wp _ _ _ _ _ _ _ (rd x (by simp [reads])) (rd y (by simp [reads]))) fun M hM => h.write hM
  | feMul r x y => exact wp_mem (op2_wp _ _ _ _ _ _ _ (rd x (by simp [reads])) (rd y (by simp [reads]))) fun M hM => h.write hM
  | feDouble r x => exact wp_mem (op2_wp _ _ _ _ _ _ _ (rd x (by simp [reads])) (rd x (by simp [reads]))) fun M hM => h.write hM
  | feTriple r x =>
    refine wp_mem (W := fun M => ∃ M1, M1 = st.mem.upd (adr r) (O.add (m.read x) (m.read x)) ∧
      Out 0 (M1.upd (adr r) (O.add ((m.write (O.add (m.read x) (m.read x)) r).read r) ((m.write (O.add (m.read x) (m.read x)) r).read x))) M) ?_ ?_
    · unfold triple
      refine wp_bind (op2_wp _ _ _ _ _ _ _ (rd x (by simp [reads])) (rd x (by simp [reads]))) fun M hM => ?_
      have hM' : M = st.mem.upd (adr r) (O.add (m.read x) (m.read x)) := by
        funext ⟨p, o⟩
        exact hM p (fun k hk => by omega) o
      subst hM'
      have h1 := h.write hM
      exact wp_mono (op2_wp _ _ _ _ _ _ _ (h1.cell r (by simp)) (h1.cell x (Or.inl (hc x (by simp [reads]))))) fun M hM => ⟨_, rfl, hM⟩
    · rintro M ⟨M1, rfl, hM⟩
      have h1 := h.write (r := r) (Out.refl 0 (st.mem.upd (adr r) (O.add (m.read x) (m.read x))))
      have h2 := h1.write hM
      exact ⟨fun a ha => h2.cell a (ha.elim (fun h => Or.inl (Or.inl h)) Or.inr), h2.scs⟩
  | feInvert r x => exact wp_mem (invert_wp _ _ _ _ _ (rd x (by simp [reads])) (adr_hi _ _) _ rfl) fun M hM => h.write hM
  | fePow2523 r x => exact wp_mem (pow2523_wp _ _ _ _ _ (rd x (by simp [reads])) (adr_hi _ _) _ rfl) fun M hM => h.write hM
  | feInvsqrt r x => exact wp_mem (invsqrt_wp _ _ _ _ _ (rd x (by simp [reads])) (adr_hi _ _) _ rfl) fun M hM => h.write hM
  | feSqrt r x => exact wp_mem (sqrt_wp _ _ _ _ _ (rd x (by simp [reads])) (adr_hi _ _) _ rfl) fun M hM => h.write hM
  | feInvsqrti r x => exact wp_memI (invsqrti_wp _ _ _ _ _ (rd x (by simp [reads])) (adr_hi _ _) _ _ rfl rfl) fun M hM => h.write hM
  | feSqrti r x => exact wp_memI (sqrti_wp _ _ _ _ _ (rd x (by simp [reads])) (adr_hi _ _) _ _ rfl rfl) fun M hM => h.write hM
  | feAbs r x => exact wp_mem (abs_wp _ _ _ _ _ (rd x (by simp [reads])) (adr_hi _ _) (adr_hi _ _) _ rfl) fun M hM => h.write hM
  | feCmov r x b =>
    refine wp_mem (W := Out 0 (st.mem.upd (adr r) (O.cmov (m.read r) (m.read x) b))) ?_ fun M hM => h.write hM
    simp only [CrefPtr.cmov, ld_adr, rd r (by simp [reads]), rd x (by simp [reads])]
    exact wp_some (Out.refl _ _)
  | feIsZero x =>
    have e := rd x (by simp [reads])
    simp only [pexec, CrefPtr.iszero, ld_adr, e]
    exact wp_some ⟨rfl, h.none⟩
  | feIsOne x => exact wp_memI (iseq_wp _ _ (.con O.one) _ _ O.one (rd x (by simp [reads])) (ld_con _ _) (adr_hi _ _)) fun M hM => h.keep hM
  | feIsNegative x =>
    have e := rd x (by simp [reads])
    simp only [pexec, CrefPtr.isnegative, ld_adr, e]
    exact wp_some ⟨rfl, h.none⟩
  | feIsEq x y => exact wp_memI (iseq_wp _ _ _ _ _ _ (rd x (by simp [reads])) ((decl_hi _ _ _ _ _ (adr_hi _ _)).trans (rd y (by simp [reads]))) (adr_hi _ _)) fun M hM => h.keep hM
  | geUnpack g buf =>
    have hu := geUnpack_wp (F := F) (.pt g) buf st.mem (hi_pt _ _) _ _ rfl rfl
    simp only [effect, pexec]
    generalize Cref.geUnpack (F := F) buf = u at hu ⊢
    generalize CrefPtr.geUnpack (.pt g) buf st.mem = f at hu ⊢
    exact wp_memI hu fun M hM => h.setPt hM
  | gePack g =>
    obtain ⟨b, e, rfl⟩ := gePack_wp (.pt g) st.mem _ (h.pt (g := g) fun a ha => hc a ha) (hi_pt _ _)
    simp only [pexec, e]
    exact wp_some ⟨rfl, h.none⟩
  | geFromJacobiQuartic g s t =>
    exact wp_mem (fromJacobiQuartic_wp _ _ _ _ _ _ (rd s (by simp [reads])) (rd t (by simp [reads])) (hi_pt _ _) (adr_hi _ _) (adr_hi _ _) _ rfl) fun M hM => h.setPt hM
  | geElligator g f => exact wp_mem (geElligator_wp _ _ _ _ _ (rd f (by simp [reads])) (hi_pt _ _) (adr_hi _ _) _ rfl) fun M hM => h.setPt hM
  | geNeg g x => exact wp_mem (geNeg_wp _ _ _ _ (h.pt fun a ha => hc a ha) _ rfl) fun M hM => h.setPt hM
  | geAdd g x y =>
    exact wp_mem (geAdd_wp _ _ _ _ _ _ (h.pt fun a ha => hc a (by simp [reads, ha])) (h.pt fun a ha => hc a (by simp [reads, ha])) (hi_pt _ _) (hi_pt _ _) (hi_pt _ _) _ rfl)
      fun M hM => h.setPt hM
  | geDouble g x =>
    exact wp_mem (geDouble_wp' _ _ _ (m.pts x) (rd (.coord x .X) (by simp [reads])) (rd (.coord x .Y) (by simp [reads])) (rd (.coord x .Z) (by simp [reads]))
      (hi_pt _ _) (hi_pt _ _) _ rfl) fun M hM => h.setPt hM
  | geScalarMult g x s =>
    have := geScalarMult_wp (.pt g) (.pt x) (st.scs s) st.mem _ (h.pt fun a ha => hc a ha) (hi_pt _ _) (hi_pt _ _)
    refine wp_mem this fun M hM => ?_
    rw [h.scs] at hM
    exact h.setPt hM
  | geScalarMultBase g s =>
    have := geScalarMultBase_wp T.tab hT (.pt g) (hi_pt _ _) (st.scs s) st.mem
    refine wp_mem this fun M hM => ?_
    rw [h.scs] at hM
    exact h.setPt hM
  | geMultiScalarMult g xs =>
    have h0 : Out 193 st.mem (st.mem.decl 192 193) := (Out.refl _ _).decl _ _ le_rfl
    obtain ⟨W, hW, hwp⟩ := multi_wp g st.mem st.scs m h.scs D xs Cref.neutral (CrefPtr.setPt (.pt g) Cref.neutral (st.mem.decl 192 193)) (fun x hx hg =>
      h.pt fun a ha => hc a (by
        simp only [reads, List.mem_flatMap, List.mem_filter, List.mem_map]
        exact ⟨x.1, ⟨⟨x, hx, rfl⟩, by simpa using hg⟩, ha⟩)) h0.set
    have : (effect m (.geMultiScalarMult g xs)) = (m.setPt g W, .unit) := by
      simp only [effect]
      rw [hW]
    rw [this]
    exact wp_mem hwp fun M hM => h.setPt hM
  | geEquals x y =>
    exact wp_memI (geEquals_wp _ _ _ (m.pts x) (m.pts y) (rd (.coord x .X) (by simp [reads])) (rd (.coord x .Y) (by simp [reads])) (rd (.coord y .X) (by simp [reads]))
      (rd (.coord y .Y) (by simp [reads])) (hi_pt _ _) (hi_pt _ _)) fun M hM => h.keep hM
  | geIsNeutral x =>
    exact wp_memI (geIsNeutral_wp _ _ (m.pts x) (rd (.coord x .X) (by simp [reads])) (rd (.coord x .Y) (by simp [reads])) (rd (.coord x .Z) (by simp [reads]))
      (hi_pt _ _)) fun M hM => h.keep hM

theorem prun_ok (hT : T.tab.length = 425) (cs : List QCmd) : ∀ (D : FeRef → Prop) (m : CMem F) (st : PState F), Rep D m st → SetBeforeRead D cs →
    ∃ st', prun st cs = some (st', (effects m cs).2) ∧ Rep (setAfter D cs) (effects m cs).1 st' := by
  induction cs with
  | nil => intro D m st h _; exact ⟨st, rfl, h⟩
  | cons c cs ih =>
    intro D m st h hs
    obtain ⟨⟨st1, o⟩, e, ho, h1⟩ := pexec_ok hT D m st h c hs.1
    obtain ⟨st2, e2, h2⟩ := ih _ _ st1 h1 hs.2
    refine ⟨st2, ?_, h2⟩
    have ho : o = (effect m c).2 := ho
    subst ho
    simp only [prun, e, Option.bind_eq_bind, Option.bind_some, e2]
    rfl

end

end Ristretto.Proofs.CrefPtr
