import Verif.Proofs.CrefLoopsMult
import Verif.Spec.CrefInit

/-!
# The arrays of cref.c: programs
-/

set_option autoImplicit false
set_option linter.unusedSimpArgs false
set_option linter.unusedSectionVars false

namespace Ristretto.Proofs.CrefLoops
open Ristretto Ristretto.Model Ristretto.Model.CrefLoops Ristretto.Spec
open Ristretto.Model.Cref (Sc CMem KCmd CCmd COut kexec krun)

section
variable {F : Type} [O : Cref.CrefOps F]

omit O in
theorem rep_mono {D D' : Nat → Prop} {l : LMem F} {m : CMem F} (h : Rep D l m) (hD : ∀ n, D' n → D n) : Rep D' l m :=
  ⟨h.fes, h.pts, h.len, fun n hn => h.scs n (hD n hn)⟩

omit O in
theorem rep_setPt {D : Nat → Prop} {l : LMem F} {m : CMem F} (h : Rep D l m) (g : Nat) (v : ExtPt F) : Rep D (l.setPt g v) (m.setPt g v) := by
  refine ⟨h.fes, ?_, h.len, h.scs⟩
  simp only [LMem.setPt, CMem.setPt, h.pts]

omit O in
/-- A memory that agrees with one where a scalar variable has been set. -/
theorem rep_setSc {D : Nat → Prop} {l : LMem F} {m : CMem F} (h : Rep D l m) (r : Nat) (v : Sc) (M : SMem)
    (hM : Agree M (l.scs.upd (.var r) (full v.toList))) : Rep (fun n => D n ∨ n ∈ [r]) { l with scs := M } (m.setSc r v) := by
  refine ⟨h.fes, h.pts, fun n => ?_, fun n hn => ?_⟩
  · show (M (.var n)).length = 32
    rw [hM n]
    by_cases hr : n = r
    · subst hr
      rw [upd_same, full_length]
      simp
    · rw [upd_ne _ _ _ _ (by simpa using hr)]
      exact h.len n
  · show M (.var n) = full ((m.setSc r v).scs n).toList
    rw [hM n]
    by_cases hr : n = r
    · subst hr
      rw [upd_same]
      simp [CMem.setSc]
    · rw [upd_ne _ _ _ _ (by simpa using hr)]
      simp only [CMem.setSc, hr, if_false]
      rcases hn with hn | hn
      · exact h.scs n hn
      · simp [hr] at hn

variable [T : Cref.CrefTab F]

theorem multi_run {D : Nat → Prop} (r : Nat) : ∀ (xs : List (Nat × Nat)) (l : LMem F) (m : CMem F), Rep D l m → (∀ n ∈ xs.map Prod.snd, D n) →
    ∃ l', xs.foldlM (CrefLoops.multiStep r) l = some l' ∧ Rep D l' (xs.foldl (Cref.multiStep r) m) := by
  intro xs
  induction xs with
  | nil => intro l m h _; exact ⟨l, rfl, h⟩
  | cons x xs ih =>
    intro l m h hD
    have hx : D x.2 := hD x.2 (by simp)
    have h1 : CrefLoops.multiStep r l x = some (l.setPt r (Cref.geAdd (m.pts r) (Cref.geScalarMult (m.pts x.1) (m.scs x.2)))) := by
      unfold CrefLoops.multiStep
      rw [h.scs _ hx, scalarMult_eq, h.pts]
      rfl
    obtain ⟨l', h2, h3⟩ := ih _ _ (rep_setPt h r (Cref.geAdd (m.pts r) (Cref.geScalarMult (m.pts x.1) (m.scs x.2))))
      (fun n hn => hD n (by simp at hn ⊢; exact Or.inr hn))
    refine ⟨l', ?_, h3⟩
    rw [List.foldlM_cons, h1]
    exact h2

theorem lexec_eq (hT : T.tab.length = 425) {D : Nat → Prop} {l : LMem F} {m : CMem F} (h : Rep D l m) (c : KCmd) (hD : ∀ n ∈ readsSc c, D n) :
    ∃ l', lexec l c = some (l', (kexec m c).2) ∧ Rep (fun n => D n ∨ n ∈ setsSc c) l' (kexec m c).1 := by
  have hno : ∀ {l' : LMem F} {m' : CMem F}, Rep D l' m' → setsSc c = [] → Rep (fun n => D n ∨ n ∈ setsSc c) l' m' := by
    intro l' m' h' hc
    refine rep_mono h' (fun n hn => ?_)
    rcases hn with hn | hn
    · exact hn
    · rw [hc] at hn
      simp at hn
  have hset : ∀ (r : Nat) (v : Sc) (op : Option SMem), (∃ M, op = some M ∧ Agree M (l.scs.upd (.var r) (full v.toList))) →
      ∃ l', (do some ({ l with scs := ← op }, COut.unit)) = some (l', COut.unit) ∧ Rep (fun n => D n ∨ n ∈ [r]) l' (m.setSc r v) := by
    rintro r v op ⟨M, hM, hA⟩
    subst hM
    exact ⟨_, rfl, rep_setSc h r v M hA⟩
  have hon : ∀ (r : Nat) (f : Arr UInt32 → Option (Arr UInt32)) (v : Sc), f (l.scs (.var r)) = some (full v.toList) →
      ∃ M, l.scs.onSc (.var r) f = some M ∧ Agree M (l.scs.upd (.var r) (full v.toList)) :=
    fun r f v hf => ⟨_, onSc_eq _ _ _ _ hf, fun _ => rfl⟩
  have hsame : ∀ (c' : KCmd), (kexec ⟨l.fes, l.pts, fun _ => Cref.scSetZero⟩ c').1.fes = (kexec m c').1.fes →
      (kexec ⟨l.fes, l.pts, fun _ => Cref.scSetZero⟩ c').1.pts = (kexec m c').1.pts →
      (kexec ⟨l.fes, l.pts, fun _ => Cref.scSetZero⟩ c').2 = (kexec m c').2 → (kexec m c').1.scs = m.scs →
      ∃ l', (some ((⟨(kexec ⟨l.fes, l.pts, fun _ => Cref.scSetZero⟩ c').1.fes,
        (kexec ⟨l.fes, l.pts, fun _ => Cref.scSetZero⟩ c').1.pts, l.scs⟩ : LMem F), (kexec ⟨l.fes, l.pts, fun _ => Cref.scSetZero⟩ c').2)) =
        some (l', (kexec m c').2) ∧ Rep D l' (kexec m c').1 := by
    intro c' h1 h2 h3 h4
    exact ⟨⟨_, _, l.scs⟩, by rw [h3], h1, h2, h.len, fun n hn => by rw [h4]; exact h.scs n hn⟩
  have hf := h.fes
  have hp := h.pts
  cases c with
  | go c =>
    cases c with
    | geScalarMult g x s =>
      refine ⟨l.setPt g (Cref.geScalarMult (m.pts x) (m.scs s)), ?_, hno (rep_setPt h _ _) rfl⟩
      simp only [lexec]
      rw [h.scs s (hD s (by simp [readsSc])), scalarMult_eq, hp]
      rfl
    | scUnpack s buf => exact hset s _ _ (hon s _ _ (unpack_eq buf _ (h.len s)))
    | scPack s =>
      refine ⟨l, ?_, hno h rfl⟩
      simp only [lexec]
      rw [h.scs s (hD s (by simp [readsSc])), pack_eq _ _ rfl]
      simp only [Option.bind_eq_bind, Option.bind_some, toBuf_full]
      rfl
    | feUnpack f buf =>
      obtain ⟨l', h1, h2⟩ := hsame (.go (.feUnpack f buf)) (by simp only [kexec, Cref.cexec, CMem.setFe, CMem.setPt, hf, hp])
        (by simp only [kexec, Cref.cexec, CMem.setFe, CMem.setPt, hf, hp]) (by simp only [kexec, Cref.cexec, hf, hp]) rfl
      exact ⟨l', h1, hno h2 rfl⟩
    | fePack f =>
      obtain ⟨l', h1, h2⟩ := hsame (.go (.fePack f)) (by simp only [kexec, Cref.cexec, CMem.setFe, CMem.setPt, hf, hp])
        (by simp only [kexec, Cref.cexec, CMem.setFe, CMem.setPt, hf, hp]) (by simp only [kexec, Cref.cexec, hf, hp]) rfl
      exact ⟨l', h1, hno h2 rfl⟩
    | geUnpack g buf =>
      obtain ⟨l', h1, h2⟩ := hsame (.go (.geUnpack g buf)) (by simp only [kexec, Cref.cexec, CMem.setFe, CMem.setPt, hf, hp])
        (by simp only [kexec, Cref.cexec, CMem.setFe, CMem.setPt, hf, hp]) (by simp only [kexec, Cref.cexec, hf, hp]) rfl
      exact ⟨l', h1, hno h2 rfl⟩
    | gePack g =>
      obtain ⟨l', h1, h2⟩ := hsame (.go (.gePack g)) (by simp only [kexec, Cref.cexec, CMem.setFe, CMem.setPt, hf, hp])
        (by simp only [kexec, Cref.cexec, CMem.setFe, CMem.setPt, hf, hp]) (by simp only [kexec, Cref.cexec, hf, hp]) rfl
      exact ⟨l', h1, hno h2 rfl⟩
    | geElligator g f =>
      obtain ⟨l', h1, h2⟩ := hsame (.go (.geElligator g f)) (by simp only [kexec, Cref.cexec, CMem.setFe, CMem.setPt, hf, hp])
        (by simp only [kexec, Cref.cexec, CMem.setFe, CMem.setPt, hf, hp]) (by simp only [kexec, Cref.cexec, hf, hp]) rfl
      exact ⟨l', h1, hno h2 rfl⟩
    | geNeg g x =>
      obtain ⟨l', h1, h2⟩ := hsame (.go (.geNeg g x)) (by simp only [kexec, Cref.cexec, CMem.setFe, CMem.setPt, hf, hp])
        (by simp only [kexec, Cref.cexec, CMem.setFe, CMem.setPt, hf, hp]) (by simp only [kexec, Cref.cexec, hf, hp]) rfl
      exact ⟨l', h1, hno h2 rfl⟩
    | geAdd g x y =>
      obtain ⟨l', h1, h2⟩ := hsame (.go (.geAdd g x y)) (by simp only [kexec, Cref.cexec, CMem.setFe, CMem.setPt, hf, hp])
        (by simp only [kexec, Cref.cexec, CMem.setFe, CMem.setPt, hf, hp]) (by simp only [kexec, Cref.cexec, hf, hp]) rfl
      exact ⟨l', h1, hno h2 rfl⟩
    | geDouble g x =>
      obtain ⟨l', h1, h2⟩ := hsame (.go (.geDouble g x)) (by simp only [kexec, Cref.cexec, CMem.setFe, CMem.setPt, hf, hp])
        (by simp only [kexec, Cref.cexec, CMem.setFe, CMem.setPt, hf, hp]) (by simp only [kexec, Cref.cexec, hf, hp]) rfl
      exact ⟨l', h1, hno h2 rfl⟩
  | scSetZero r => exact hset r _ _ (hon r _ _ (setZero_eq _ (h.len r)))
  | scSetOne r => exact hset r _ _ (hon r _ _ (setOne_eq _ (h.len r)))
  | scAdd r x y =>
    exact hset r _ _ ⟨_, add_eq _ _ _ _ _ _ (h.scs x (hD x (by simp [readsSc]))) (h.scs y (hD y (by simp [readsSc]))) (h.len r), fun _ => rfl⟩
  | scSub r x y =>
    exact hset r _ _ (sub_eq _ _ _ _ _ _ (h.scs x (hD x (by simp [readsSc]))) (h.scs y (hD y (by simp [readsSc]))) (h.len r) (by simp))
  | scNegate r x => exact hset r _ _ (negate_eq r x _ _ (h.scs x (hD x (by simp [readsSc]))) (h.len r))
  | scMul r x y =>
    exact hset r _ _ ⟨_, mul_eq _ _ _ _ _ _ (h.scs x (hD x (by simp [readsSc]))) (h.scs y (hD y (by simp [readsSc]))) (h.len r), fun _ => rfl⟩
  | scSquare r x =>
    exact hset r _ _ ⟨_, mul_eq _ _ _ _ _ _ (h.scs x (hD x (by simp [readsSc]))) (h.scs x (hD x (by simp [readsSc]))) (h.len r), fun _ => rfl⟩
  | scInvert r x => exact hset r _ _ (invert_eq r x _ _ (h.scs x (hD x (by simp [readsSc]))) (h.len r))
  | scFrom64 r b => exact hset r _ _ (hon r _ _ (from64bytes_eq b _ (h.len r)))
  | scIsOne x =>
    refine ⟨l, ?_, hno h rfl⟩
    simp only [lexec]
    rw [h.scs x (hD x (by simp [readsSc])), isOne_eq]
    rfl
  | scIsZero x =>
    refine ⟨l, ?_, hno h rfl⟩
    simp only [lexec]
    rw [h.scs x (hD x (by simp [readsSc])), isZero_eq]
    rfl
  | scBitlen x =>
    refine ⟨l, ?_, hno h rfl⟩
    simp only [lexec]
    rw [h.scs x (hD x (by simp [readsSc])), bitlen_eq]
    rfl
  | scEquals x y =>
    refine ⟨l, ?_, hno h rfl⟩
    simp only [lexec]
    rw [h.scs x (hD x (by simp [readsSc])), h.scs y (hD y (by simp [readsSc])), equals_eq]
    rfl
  | scTstbit x pos =>
    refine ⟨l, ?_, hno h rfl⟩
    simp only [lexec]
    rw [h.scs x (hD x (by simp [readsSc])), tstbit_eq]
    rfl
  | geScalarMultBase r s =>
    refine ⟨l.setPt r (Cref.scalarMultBaseWith T.tab (m.scs s)), ?_, hno (rep_setPt h _ _) rfl⟩
    simp only [lexec]
    rw [h.scs s (hD s (by simp [readsSc])), scalarMultBase_eq _ hT]
    rfl
  | geMultiScalarMult r xs =>
    obtain ⟨l', h1, h2⟩ := multi_run r xs _ _ (rep_setPt h r Cref.neutral) hD
    refine ⟨l', ?_, hno h2 rfl⟩
    simp only [lexec]
    rw [h1]
    rfl
  | feIsZero x =>
    refine ⟨l, ?_, hno h rfl⟩
    simp only [lexec]
    rw [iszero_eq, hf]
    rfl
  | feSetOne r =>
    obtain ⟨l', h1, h2⟩ := hsame (.feSetOne r) (by simp only [kexec, Cref.tripleMem, CMem.setFe, CMem.setPt, hf, hp])
      (by simp only [kexec, Cref.tripleMem, CMem.setFe, CMem.setPt, hf, hp]) (by simp only [kexec, hf, hp]) rfl
    exact ⟨l', h1, hno h2 rfl⟩
  | feSetZero r =>
    obtain ⟨l', h1, h2⟩ := hsame (.feSetZero r) (by simp only [kexec, Cref.tripleMem, CMem.setFe, CMem.setPt, hf, hp])
      (by simp only [kexec, Cref.tripleMem, CMem.setFe, CMem.setPt, hf, hp]) (by simp only [kexec, hf, hp]) rfl
    exact ⟨l', h1, hno h2 rfl⟩
  | feNeg r x =>
    obtain ⟨l', h1, h2⟩ := hsame (.feNeg r x) (by simp only [kexec, Cref.tripleMem, CMem.setFe, CMem.setPt, hf, hp])
      (by simp only [kexec, Cref.tripleMem, CMem.setFe, CMem.setPt, hf, hp]) (by simp only [kexec, hf, hp]) rfl
    exact ⟨l', h1, hno h2 rfl⟩
  | feAdd r x y =>
    obtain ⟨l', h1, h2⟩ := hsame (.feAdd r x y) (by simp only [kexec, Cref.tripleMem, CMem.setFe, CMem.setPt, hf, hp])
      (by simp only [kexec, Cref.tripleMem, CMem.setFe, CMem.setPt, hf, hp]) (by simp only [kexec, hf, hp]) rfl
    exact ⟨l', h1, hno h2 rfl⟩
  | feSub r x y =>
    obtain ⟨l', h1, h2⟩ := hsame (.feSub r x y) (by simp only [kexec, Cref.tripleMem, CMem.setFe, CMem.setPt, hf, hp])
      (by simp only [kexec, Cref.tripleMem, CMem.setFe, CMem.setPt, hf, hp]) (by simp only [kexec, hf, hp]) rfl
    exact ⟨l', h1, hno h2 rfl⟩
  | feDouble r x =>
    obtain ⟨l', h1, h2⟩ := hsame (.feDouble r x) (by simp only [kexec, Cref.tripleMem, CMem.setFe, CMem.setPt, hf, hp])
      (by simp only [kexec, Cref.tripleMem, CMem.setFe, CMem.setPt, hf, hp]) (by simp only [kexec, hf, hp]) rfl
    exact ⟨l', h1, hno h2 rfl⟩
  | feTriple r x =>
    obtain ⟨l', h1, h2⟩ := hsame (.feTriple r x) (by simp only [kexec, Cref.tripleMem, CMem.setFe, CMem.setPt, hf, hp])
      (by simp only [kexec, Cref.tripleMem, CMem.setFe, CMem.setPt, hf, hp]) (by simp only [kexec, hf, hp]) rfl
    exact ⟨l', h1, hno h2 rfl⟩
  | feMul r x y =>
    obtain ⟨l', h1, h2⟩ := hsame (.feMul r x y) (by simp only [kexec, Cref.tripleMem, CMem.setFe, CMem.setPt, hf, hp])
      (by simp only [kexec, Cref.tripleMem, CMem.setFe, CMem.setPt, hf, hp]) (by simp only [kexec, hf, hp]) rfl
    exact ⟨l', h1, hno h2 rfl⟩
  | feSquare r x =>
    obtain ⟨l', h1, h2⟩ := hsame (.feSquare r x) (by simp only [kexec, Cref.tripleMem, CMem.setFe, CMem.setPt, hf, hp])
      (by simp only [kexec, Cref.tripleMem, CMem.setFe, CMem.setPt, hf, hp]) (by simp only [kexec, hf, hp]) rfl
    exact ⟨l', h1, hno h2 rfl⟩
  | feSquareDouble r x =>
    obtain ⟨l', h1, h2⟩ := hsame (.feSquareDouble r x) (by simp only [kexec, Cref.tripleMem, CMem.setFe, CMem.setPt, hf, hp])
      (by simp only [kexec, Cref.tripleMem, CMem.setFe, CMem.setPt, hf, hp]) (by simp only [kexec, hf, hp]) rfl
    exact ⟨l', h1, hno h2 rfl⟩
  | feInvert r x =>
    obtain ⟨l', h1, h2⟩ := hsame (.feInvert r x) (by simp only [kexec, Cref.tripleMem, CMem.setFe, CMem.setPt, hf, hp])
      (by simp only [kexec, Cref.tripleMem, CMem.setFe, CMem.setPt, hf, hp]) (by simp only [kexec, hf, hp]) rfl
    exact ⟨l', h1, hno h2 rfl⟩
  | fePow2523 r x =>
    obtain ⟨l', h1, h2⟩ := hsame (.fePow2523 r x) (by simp only [kexec, Cref.tripleMem, CMem.setFe, CMem.setPt, hf, hp])
      (by simp only [kexec, Cref.tripleMem, CMem.setFe, CMem.setPt, hf, hp]) (by simp only [kexec, hf, hp]) rfl
    exact ⟨l', h1, hno h2 rfl⟩
  | feAbs r x =>
    obtain ⟨l', h1, h2⟩ := hsame (.feAbs r x) (by simp only [kexec, Cref.tripleMem, CMem.setFe, CMem.setPt, hf, hp])
      (by simp only [kexec, Cref.tripleMem, CMem.setFe, CMem.setPt, hf, hp]) (by simp only [kexec, hf, hp]) rfl
    exact ⟨l', h1, hno h2 rfl⟩
  | feCmov r x b =>
    obtain ⟨l', h1, h2⟩ := hsame (.feCmov r x b) (by simp only [kexec, Cref.tripleMem, CMem.setFe, CMem.setPt, hf, hp])
      (by simp only [kexec, Cref.tripleMem, CMem.setFe, CMem.setPt, hf, hp]) (by simp only [kexec, hf, hp]) rfl
    exact ⟨l', h1, hno h2 rfl⟩
  | feIsOne x =>
    obtain ⟨l', h1, h2⟩ := hsame (.feIsOne x) (by simp only [kexec, Cref.tripleMem, CMem.setFe, CMem.setPt, hf, hp])
      (by simp only [kexec, Cref.tripleMem, CMem.setFe, CMem.setPt, hf, hp]) (by simp only [kexec, hf, hp]) rfl
    exact ⟨l', h1, hno h2 rfl⟩
  | feIsNegative x =>
    obtain ⟨l', h1, h2⟩ := hsame (.feIsNegative x) (by simp only [kexec, Cref.tripleMem, CMem.setFe, CMem.setPt, hf, hp])
      (by simp only [kexec, Cref.tripleMem, CMem.setFe, CMem.setPt, hf, hp]) (by simp only [kexec, hf, hp]) rfl
    exact ⟨l', h1, hno h2 rfl⟩
  | feIsEq x y =>
    obtain ⟨l', h1, h2⟩ := hsame (.feIsEq x y) (by simp only [kexec, Cref.tripleMem, CMem.setFe, CMem.setPt, hf, hp])
      (by simp only [kexec, Cref.tripleMem, CMem.setFe, CMem.setPt, hf, hp]) (by simp only [kexec, hf, hp]) rfl
    exact ⟨l', h1, hno h2 rfl⟩
  | geSetNeutral r =>
    obtain ⟨l', h1, h2⟩ := hsame (.geSetNeutral r) (by simp only [kexec, Cref.tripleMem, CMem.setFe, CMem.setPt, hf, hp])
      (by simp only [kexec, Cref.tripleMem, CMem.setFe, CMem.setPt, hf, hp]) (by simp only [kexec, hf, hp]) rfl
    exact ⟨l', h1, hno h2 rfl⟩
  | geSetBase r =>
    obtain ⟨l', h1, h2⟩ := hsame (.geSetBase r) (by simp only [kexec, Cref.tripleMem, CMem.setFe, CMem.setPt, hf, hp])
      (by simp only [kexec, Cref.tripleMem, CMem.setFe, CMem.setPt, hf, hp]) (by simp only [kexec, hf, hp]) rfl
    exact ⟨l', h1, hno h2 rfl⟩
  | geEquals x y =>
    obtain ⟨l', h1, h2⟩ := hsame (.geEquals x y) (by simp only [kexec, Cref.tripleMem, CMem.setFe, CMem.setPt, hf, hp])
      (by simp only [kexec, Cref.tripleMem, CMem.setFe, CMem.setPt, hf, hp]) (by simp only [kexec, hf, hp]) rfl
    exact ⟨l', h1, hno h2 rfl⟩
  | geIsNeutral x =>
    obtain ⟨l', h1, h2⟩ := hsame (.geIsNeutral x) (by simp only [kexec, Cref.tripleMem, CMem.setFe, CMem.setPt, hf, hp])
      (by simp only [kexec, Cref.tripleMem, CMem.setFe, CMem.setPt, hf, hp]) (by simp only [kexec, hf, hp]) rfl
    exact ⟨l', h1, hno h2 rfl⟩

theorem lrun_eq (hT : T.tab.length = 425) : ∀ (cs : List KCmd) (D : Nat → Prop) (l : LMem F) (m : CMem F), Rep D l m → SetBeforeRead D cs →
    ∃ l', lrun l cs = some (l', (krun m cs).2) ∧ Rep (setAfter D cs) l' (krun m cs).1 := by
  intro cs
  induction cs with
  | nil =>
    intro D l m h _
    exact ⟨l, rfl, rep_mono h (fun n hn => by simpa [setAfter] using hn)⟩
  | cons c cs ih =>
    intro D l m h hs
    obtain ⟨l1, h1, h2⟩ := lexec_eq hT h c hs.1
    obtain ⟨l2, h3, h4⟩ := ih _ l1 _ h2 hs.2
    refine ⟨l2, ?_, rep_mono h4 (fun n hn => ?_)⟩
    · rw [lrun, h1]
      simp only [Option.bind_eq_bind, Option.bind_some]
      rw [h3]
      rfl
    · rcases hn with hn | ⟨c', hc', hn⟩
      · exact Or.inl (Or.inl hn)
      · rcases List.mem_cons.1 hc' with rfl | hc'
        · exact Or.inl (Or.inr hn)
        · exact Or.inr ⟨c', hc', hn⟩

end

end Ristretto.Proofs.CrefLoops
