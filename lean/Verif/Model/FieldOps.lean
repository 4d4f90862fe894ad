import Verif.Model.Field51

/-!
# The field backend interface

edwards25519/{curve,elligator,table,vartime,field}.go are written against the primitives that
field_radix51.go + field_mul64.go, field_radix51.go + field_amd64.{go,s} or field_generic.go
provide (build tags select one).  `FieldOps` lists those primitives; the rest of the model is
written once, for every backend.
-/

namespace Ristretto.Model

/-- The primitives a field backend provides. -/
class FieldOps (F : Type) where
  /-- `feZero` … `feInvSqrt1pD`: the constants at field_radix51.go:11-85, field_generic.go:11-85 -/
  feZero : F
  feOne : F
  feMinusOne : F
  feI : F
  feMinusI : F
  feD : F
  fe2D : F
  feInvSqrtMinusDMinusOne : F
  feDoubleInvSqrtMinusDMinusOne : F
  feDoubleIInvSqrtMinusDMinusOne : F
  feDMinusOneSquared : F
  feOneMinusDSquared : F
  feDp1OverDm1 : F
  feSqrtID : F
  feInvSqrt1pD : F
  /-- the four coordinates of `epBase` (field_radix51.go:89-97, field_generic.go:89-97) -/
  epBaseX : F
  epBaseY : F
  epBaseT : F
  /-- unexported `add`, `sub` (no normalisation) and exported `Neg` -/
  add : F → F → F
  sub : F → F → F
  neg : F → F
  normalize : F → F
  mul : F → F → F
  square : F → F
  doubledSquare : F → F
  /-- `fe.ConditionalSet(a, b)` -/
  condSet : F → F → Int32 → F
  /-- what `fe.BytesInto(s)` writes into `s` -/
  bytes : F → Bytes 32
  /-- what `fe.BytesInto(s)` leaves in `fe`: the radix-2^51 code works on a copy
  (field_radix51.go:214-215), the generic code reduces the receiver in place
  (field_generic.go:266-296). -/
  touch : F → F
  setBytes : Bytes 32 → F

/-- The default backend: field_radix51.go with field_mul64.go. -/
instance : FieldOps Fe51 where
  feZero := ⟨0, 0, 0, 0, 0⟩
  feOne := ⟨1, 0, 0, 0, 0⟩
  feMinusOne := ⟨2251799813685228, 2251799813685247, 2251799813685247, 2251799813685247,
    2251799813685247⟩
  feI := ⟨1718705420411056, 234908883556509, 2233514472574048, 2117202627021982, 765476049583133⟩
  feMinusI := ⟨533094393274173, 2016890930128738, 18285341111199, 134597186663265,
    1486323764102114⟩
  feD := ⟨929955233495203, 466365720129213, 1662059464998953, 2033849074728123, 1442794654840575⟩
  fe2D := ⟨1859910466990425, 932731440258426, 1072319116312658, 1815898335770999, 633789495995903⟩
  feInvSqrtMinusDMinusOne := ⟨1972891073822467, 1430154612583622, 2243686579258279,
    473840635492096, 133279003116800⟩
  feDoubleInvSqrtMinusDMinusOne := ⟨1693982333959686, 608509411481997, 2235573344831311,
    947681270984193, 266558006233600⟩
  feDoubleIInvSqrtMinusDMinusOne := ⟨1608655899704280, 1999971613377227, 49908634785720,
    1873700692181652, 353702208628067⟩
  feDMinusOneSquared := ⟨1507062230895904, 1572317787530805, 683053064812840, 317374165784489,
    1572899562415810⟩
  feOneMinusDSquared := ⟨1136626929484150, 1998550399581263, 496427632559748, 118527312129759,
    45110755273534⟩
  feDp1OverDm1 := ⟨2159851467815724, 1752228607624431, 1825604053920671, 1212587319275468,
    253422448836237⟩
  feSqrtID := ⟨2298852427963285, 3837146560810661, 4413131899466403, 3883177008057528,
    2352084440532925⟩
  feInvSqrt1pD := ⟨321571956990465, 1251814006996634, 2226845496292387, 189049560751797,
    2074948709371214⟩
  epBaseX := ⟨2678275328304575, 4315672520525287, 2266428086574206, 2359477563015859,
    2540138899492839⟩
  epBaseY := ⟨1934594822876571, 2049809580636559, 1991994783322914, 1758681962032007,
    380046701118659⟩
  epBaseT := ⟨410445769351754, 2235400917701188, 1495825632738689, 1351628537510093,
    430502003771208⟩
  add := Fe51.add
  sub := Fe51.sub
  neg := Fe51.neg
  normalize := Fe51.normalize
  mul := Fe51.mul
  square := Fe51.square
  doubledSquare := Fe51.doubledSquare
  condSet := Fe51.condSet
  bytes := Fe51.bytes
  touch := id
  setBytes := Fe51.setBytes

end Ristretto.Model
