import Verif.Proofs.CrefLoopsRun

/-!
# C81: array accesses of the C reference implementation

Model/CrefLoops.lean runs the loops of cref.c on arrays whose cells start unset: reading an unset cell, and reading or writing outside an
array, ends the run with `none`, which is where C leaves the behaviour undefined.  Scalars are arrays in memory, written through the pointer
while the arguments are read through theirs.  The theorems below say that no run ends with `none`, and that runs have the results of the
functional model (Model/Cref.lean, Model/CrefApi.lean), about which the other properties of cref.c speak.
-/

set_option autoImplicit false

namespace Ristretto.Props
open Ristretto Ristretto.Model Ristretto.Model.CrefLoops Ristretto.Spec
open Ristretto.Model.Cref (Sc CMem KCmd CCmd COut kexec krun baseMultiples)

/-- The table has the 425 entries it is declared with (cref.c:2052). -/
theorem C81_table : (Cref.CrefTab.tab (F := Fe25)).length = 425 := by
  show baseMultiples.length = 425
  decide +kernel

/-- **C81**: a program that reads no scalar variable before setting it runs to the end, whichever variables coincide: no access is outside an
array and no unset cell is read.  Results and final contents are those of the functional model. -/
theorem C81_programs (cs : List KCmd) (D : Nat → Prop) (l : LMem Fe25) (m : CMem) (h : Rep D l m) (hs : SetBeforeRead D cs) :
    ∃ l', lrun l cs = some (l', (krun m cs).2) ∧ Rep (setAfter D cs) l' (krun m cs).1 :=
  Proofs.CrefLoops.lrun_eq C81_table cs D l m h hs

/-- From Go, variables start as zero: every program runs to the end. -/
theorem C81_go (cs : List KCmd) (l : LMem Fe25) (m : CMem) (h : Rep (fun _ => True) l m) :
    ∃ l', lrun l cs = some (l', (krun m cs).2) ∧ Rep (fun _ => True) l' (krun m cs).1 := by
  have hs : ∀ (cs : List KCmd) (D : Nat → Prop), (∀ n, D n) → SetBeforeRead D cs := by
    intro cs
    induction cs with
    | nil => intros; trivial
    | cons c cs ih => exact fun D hD => ⟨fun n _ => hD n, ih _ (fun n => Or.inl (hD n))⟩
  obtain ⟨l', h1, h2⟩ := C81_programs cs _ l m h (hs cs _ (fun _ => trivial))
  exact ⟨l', h1, h2.fes, h2.pts, h2.len, fun n _ => h2.scs n (Or.inl trivial)⟩

/-- `scalar_tstbit` takes any `unsigned int`: it reads outside the scalar exactly for positions from 256 on, and otherwise is the bit test of
the functional model. -/
theorem C81_tstbit (x : Sc) (pos : UInt32) :
    (tstbit (full x.toList) pos = none ↔ 256 ≤ pos.toNat) ∧
      ∀ h : pos.toNat < 256, tstbit (full x.toList) pos = some (Cref.tstbit x ⟨pos.toNat, h⟩) := by
  refine ⟨Proofs.CrefLoops.tstbit_none x pos, fun h => ?_⟩
  have := Proofs.CrefLoops.tstbit_eq x ⟨pos.toNat, h⟩
  simpa using this

/-- `scalar_slide`, for every scalar and window size, writes all 256 entries of the array it is given and reads none before. -/
theorem C81_slide (s : Sc) (w : Nat) : slide (full s.toList) w (uninit 256) = some (full (Cref.slide s w)) :=
  Proofs.CrefLoops.slide_eq s w

/-- `fe25519_cmov` stays inside the arrays of its two field elements. -/
theorem C81_cmov (r x : Fe25) (b : UInt8) : cmov (full (limbs x)) b (full (limbs r)) = some (full (limbs (Cref.cmov r x b))) :=
  Proofs.CrefLoops.cmov_eq r x b

/-- The two window functions write every entry of the arrays `scalarmult` reads. -/
theorem C81_windows (s : Sc) :
    (∃ b, window3 (full s.toList) (uninit 85) = some (full b) ∧ b.length = 85) ∧
      ∃ b, window5 (full s.toList) (uninit 51) = some (full b) ∧ b.length = 51 :=
  ⟨⟨_, Proofs.CrefLoops.window3_eq s⟩, ⟨_, Proofs.CrefLoops.window5_eq s⟩⟩

/-! ## Concrete cases -/

/-- Memory in which no scalar variable has been set. -/
def C81_fresh : LMem Fe25 :=
  ⟨CMem.init.fes, CMem.init.pts, fun _ => uninit 32⟩

example : Rep (fun _ => False) C81_fresh CMem.init := ⟨rfl, rfl, fun _ => rfl, fun _ h => h.elim⟩

/-- Go's zero values. -/
example : Rep (fun _ => True) (⟨CMem.init.fes, CMem.init.pts, fun _ => full (List.replicate 32 0)⟩ : LMem Fe25) CMem.init :=
  ⟨rfl, rfl, fun _ => rfl, fun _ _ => by simp [CMem.init]⟩

/-- A program with coinciding variables that sets before it reads. -/
def C81_prog : List KCmd :=
  [.scSetOne 0, .scAdd 1 0 0, .scMul 1 1 1, .scSub 0 0 1, .scInvert 1 1, .scNegate 1 1, .scEquals 0 1, .geScalarMultBase 3 1,
    .go (.geScalarMult 3 3 0), .geMultiScalarMult 3 [(3, 0), (3, 1)], .go (.gePack 3)]

example : SetBeforeRead (fun _ => False) C81_prog := by
  simp [SetBeforeRead, C81_prog, readsSc, setsSc]

/-- The machine does notice unset scalars: -/
example : lrun C81_fresh [.go (.scPack 0)] = none := rfl
example : lrun C81_fresh [.scSetOne 0, .scAdd 0 0 1] = none := rfl
example : lrun C81_fresh [.scSetOne 0, .scInvert 0 1] = none := rfl
example : lrun C81_fresh [.geScalarMultBase 0 0] = none := rfl

/-- and positions outside the scalar. -/
example : tstbit (full (List.replicate 32 0)) 256 = none := rfl
example : tstbit (full (List.replicate 32 0)) 255 = some 0 := rfl

/-- A run of scalars only, evaluated: 1 + 1, squared, and subtracted from 1 gives ℓ - 3. -/
example : ((lrun C81_fresh [.scSetOne 0, .scAdd 1 0 0, .scMul 1 1 1, .scSub 0 0 1, .scTstbit 0 0, .scTstbit 0 1, .scTstbit 0 3]).map (·.2)) =
    some [.unit, .unit, .unit, .unit, .int 0, .int 1, .int 1] := by
  decide +kernel

end Ristretto.Props
