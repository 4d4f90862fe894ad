import Verif.Proofs.CrefPtrRun
import Verif.Props.CrefLoops

/-!
# C82: the C reference implementation may be called with coinciding pointers

The functions of cref.c work on memory through pointers (Model/CrefPtr.lean).  The receiver of a call may be one of its arguments, and a
`fe25519 *` may point to a coordinate of a point, even of the receiver.  What a call is supposed to do is in Spec/CrefPtr.lean.
-/

set_option autoImplicit false

namespace Ristretto.Props
open Ristretto Ristretto.Model Ristretto.Model.CrefPtr
open Ristretto.Model.Cref (CrefOps CrefTab Sc Coord FeRef COut CMem)
open Ristretto.Spec.CrefPtr (cells reads writes SetBeforeRead setAfter effect effects)

/-- **C82**: a program that reads no cell before it is set runs to the end, whichever pointers coincide: no unset local variable, coordinate or
field element is read.  It returns what it should, and afterwards memory holds what it should. -/
theorem C82_programs (cs : List QCmd) (D : FeRef → Prop) (m : CMem) (st : PState Fe25)
    (hD : ∀ a, D a → st.mem (adr a) = some (m.read a)) (hsc : ∀ s, st.scs s = m.scs s) (hs : SetBeforeRead D cs) :
    ∃ st', prun st cs = some (st', (effects m cs).2) ∧ (∀ a, setAfter D cs a → st'.mem (adr a) = some ((effects m cs).1.read a)) ∧
      ∀ s, st'.scs s = (effects m cs).1.scs s := by
  obtain ⟨st', e, h⟩ := Proofs.CrefPtr.prun_ok C81_table cs D m st ⟨hD, hsc⟩ hs
  exact ⟨st', e, h.cell, h.scs⟩

theorem C82_setBeforeRead (cs : List QCmd) : ∀ (D : FeRef → Prop), (∀ a, D a) → SetBeforeRead D cs ∧ ∀ a, setAfter D cs a := by
  induction cs with
  | nil => exact fun D hD => ⟨trivial, hD⟩
  | cons c cs ih =>
    intro D hD
    obtain ⟨h1, h2⟩ := ih (fun a => D a ∨ a ∈ writes c) (fun a => Or.inl (hD a))
    exact ⟨⟨fun a _ => hD a, h1⟩, h2⟩

/-- From Go, variables start as zero: every program runs to the end. -/
theorem C82_go (cs : List QCmd) (m : CMem) (st : PState Fe25) (hD : ∀ a, st.mem (adr a) = some (m.read a)) (hsc : ∀ s, st.scs s = m.scs s) :
    ∃ st', prun st cs = some (st', (effects m cs).2) ∧ (∀ a, st'.mem (adr a) = some ((effects m cs).1.read a)) ∧
      ∀ s, st'.scs s = (effects m cs).1.scs s := by
  obtain ⟨h1, h2⟩ := C82_setBeforeRead cs (fun _ => True) (fun _ => trivial)
  obtain ⟨st', e, h, h'⟩ := C82_programs cs (fun _ => True) m st (fun a _ => hD a) hsc h1
  exact ⟨st', e, fun a => h a (h2 a), h'⟩

/-- A call changes no cell but those of the receiver. -/
theorem C82_frame (c : QCmd) (m : CMem) (a : FeRef) (ha : a ∉ writes c) : (effect m c).1.read a = m.read a := by
  have hw : ∀ (v : Fe25) (r : FeRef), a ∉ [r] → (m.write v r).read a = m.read a := fun v r h => by
    rw [Proofs.CrefPtr.read_write, if_neg (by simpa using h)]
  have hp : ∀ (m : CMem) (v : ExtPt Fe25) (g : Nat), a ∉ cells g → (m.setPt g v).read a = m.read a := fun m v g h => by
    rcases a with n | ⟨g', c⟩
    · rfl
    · have : g' ≠ g := fun e => h (by subst e; cases c <;> simp [cells])
      simp [CMem.read, CMem.setPt, this]
  cases c
  case setSc => rcases a with n | ⟨g, c⟩ <;> rfl
  case feTriple r x =>
    simp only [effect]
    have h : a ≠ r := by simpa [writes] using ha
    rw [Proofs.CrefPtr.read_write, if_neg h, Proofs.CrefPtr.read_write, if_neg h]
  case geMultiScalarMult g xs =>
    simp only [effect]
    have ha : a ∉ cells g := ha
    have : ∀ (xs : List (Nat × Nat)) (m' : CMem), (xs.foldl (fun m xs => m.setPt g (Cref.geAdd (m.pts g) (Cref.geScalarMult (m.pts xs.1) (m.scs xs.2)))) m').read a =
        m'.read a := by
      intro xs
      induction xs with
      | nil => intro m'; rfl
      | cons x xs ih => intro m'; rw [List.foldl_cons, ih, hp _ _ _ ha]
    rw [this, hp _ _ _ ha]
  all_goals first
    | rfl
    | exact hw _ _ ha
    | exact hp _ _ _ ha

/-- The programs of C63 are programs on memory: a call there does to the variables what the call through pointers does. -/
theorem C82_same (c : Cref.KCmd) (q : QCmd) (h : Spec.CrefPtr.ofK c = some q) (m : CMem) : Cref.kexec m c = effect m q := by
  cases c with
  | go c => cases c <;> (simp only [Spec.CrefPtr.ofK, Option.some.injEq, reduceCtorEq] at h) <;> subst h <;> rfl
  | _ => (simp only [Spec.CrefPtr.ofK, Option.some.injEq, reduceCtorEq] at h) <;> subst h <;> rfl

/-- `fe25519_triple` in place: four times the argument. -/
theorem C82_triple (m : CMem) (r x : FeRef) :
    (effect m (.feTriple r x)).1.read r = if r = x then Cref.add (Cref.add (m.read x) (m.read x)) (Cref.add (m.read x) (m.read x))
      else Cref.add (Cref.add (m.read x) (m.read x)) (m.read x) := by
  simp only [effect, Proofs.CrefPtr.read_write, if_true]
  by_cases h : r = x
  · subst h; simp; rfl
  · rw [if_neg h, if_neg (fun e => h e.symm)]; rfl

/-! ## Concrete cases -/

/-- Memory in which nothing has been set. -/
def C82_fresh : PState Fe25 := ⟨fun _ => none, CMem.init.scs⟩

example : (∀ a, (fun _ => False : FeRef → Prop) a → C82_fresh.mem (adr a) = some (CMem.init.read a)) ∧ ∀ s, C82_fresh.scs s = CMem.init.scs s :=
  ⟨fun _ h => h.elim, fun _ => rfl⟩

/-- Go's zero values. -/
example : ∃ st : PState Fe25, (∀ a, st.mem (adr a) = some (CMem.init.read a)) ∧ ∀ s, st.scs s = CMem.init.scs s :=
  ⟨⟨fun _ => some ⟨0, 0, 0, 0, 0, 0, 0, 0, 0, 0⟩, CMem.init.scs⟩, fun a => by rcases a with n | ⟨g, c⟩ <;> [rfl; (cases c <;> rfl)], fun _ => rfl⟩

/-- A program in which everything is done in place, from unset variables. -/
def C82_prog (buf : Bytes 32) (s : Sc) : List QCmd :=
  [.setSc 0 s, .geUnpack 0 buf, .geElligator 0 (.coord 0 .X), .geDouble 0 0, .geAdd 0 0 0, .feMul (.coord 0 .X) (.coord 0 .X) (.coord 0 .Y),
    .feInvert (.coord 0 .Z) (.coord 0 .Z), .geScalarMult 0 0 0, .geMultiScalarMult 0 [(0, 0), (0, 0)], .feInvsqrti (.coord 0 .T) (.coord 0 .T),
    .geNeg 0 0, .geEquals 0 0, .gePack 0]

example (buf : Bytes 32) (s : Sc) : SetBeforeRead (fun _ => False) (C82_prog buf s) := by
  simp [SetBeforeRead, C82_prog, reads, writes, cells]

example : Spec.CrefPtr.ofK (.go (.geElligator 3 4)) = some (.geElligator 3 (.var 4)) := rfl

/-- The machine does notice unset cells: -/
example : (prun C82_fresh [.feNeg (.var 0) (.var 0)]).isNone := rfl
example : (prun C82_fresh [.feSetOne (.var 0), .feMul (.var 0) (.var 0) (.coord 1 .X)]).isNone := rfl
example : (prun C82_fresh [.geScalarMult 0 0 0]).isNone := rfl

/-- A run, evaluated: the coordinate X of a point, set to one, is tripled in place and then compared with one plus one, doubled. -/
example : ((prun C82_fresh [.feSetOne (.coord 7 .X), .feAdd (.var 0) (.coord 7 .X) (.coord 7 .X), .feDouble (.var 0) (.var 0),
    .feTriple (.coord 7 .X) (.coord 7 .X), .feIsEq (.coord 7 .X) (.var 0)]).map (·.2)) = some [.unit, .unit, .unit, .unit, .int 1] := by
  decide +kernel

end Ristretto.Props
