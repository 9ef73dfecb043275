import Verif.Utilities

/-!
# C87: conversion of floats
-/

namespace Verif.C87

/-- **C87.** Both conversions raise `NameError` whatever the argument. -/
theorem always_fails (F : Type) (n : Int) (x : F) :
    u32BEToFloat32BE F n = .error .nameError ∧ float32beToU32be F x = .error .nameError := ⟨rfl, rfl⟩

/-- **C87.** So no word survives the round trip. -/
theorem full_claim_false (F : Type) (n : Int) :
    ¬ ∃ x : F, u32BEToFloat32BE F n = .ok x ∧ float32beToU32be F x = .ok n := by
  rintro ⟨x, h, -⟩
  cases h

example : u32BEToFloat32BE Unit 0x3f800000 = .error .nameError := rfl

end Verif.C87
