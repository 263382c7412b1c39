import Verif.Props.Repr

/-!
# C140: the text of every object, character by character

`num x` and `int i` are the texts Python prints for a float and for an int; nothing is assumed about them here.
-/

namespace Nv.Repr
variable {α : Type} (num : α → List Char) (int : ℤ → List Char)

/-- the text of the name of an ellipsoid: a string in quotes, or a number -/
def nameText : EllKey → List Char
  | .str s => "'".toList ++ s.toList ++ "'".toList
  | .int i => int i

/-- `[x, y, z]` -/
def rowText (v : V3 α) : List Char := "[".toList ++ num v.x ++ ", ".toList ++ num v.y ++ ", ".toList ++ num v.z ++ "]".toList
/-- `[[x], [y], [z]]` -/
def columnText (v : V3 α) : List Char := "[[".toList ++ num v.x ++ "], [".toList ++ num v.y ++ "], [".toList ++ num v.z ++ "]]".toList

/-- **C140** the text of a frame: each parameter under its name -/
theorem C140_text_FrameE (F : FrameE α) : repr (frameVal num int F) =
    "FrameE(a=".toList ++ num F.a ++ ", f=".toList ++ num F.f ++ ", name=".toList ++ nameText int F.name ++ ", R_Ee=[".toList ++
      rowText num F.R_Ee.r0 ++ ", ".toList ++ rowText num F.R_Ee.r1 ++ ", ".toList ++ rowText num F.R_Ee.r2 ++ "])".toList := by
  have h : ∀ c : Char, (some c != some '_') = !decide (c = '_') := fun c => by simp [bne, Option.some_beq_some]; rfl
  cases hn : F.name <;> simp [frameVal, nameVal, matrix, row, repr, arrayToList, join, List.filter, h, nameText, rowText, hn]

/-- **C140** the text of the positions and local frames: each attribute under its name, and the frame or the n-vector inside -/
theorem C140_text_classes :
    (∀ p : GeoPoint α, repr (geoVal num int p) = "GeoPoint(latitude=".toList ++ num p.latitude ++ ", longitude=".toList ++ num p.longitude ++
      ", z=".toList ++ num p.z ++ ", frame=".toList ++ repr (frameVal num int p.frame) ++ ")".toList) ∧
    (∀ p : Nvector α, repr (nvecVal num int p) = "Nvector(normal=".toList ++ columnText num p.normal ++ ", z=".toList ++ num p.z ++
      ", frame=".toList ++ repr (frameVal num int p.frame) ++ ")".toList) ∧
    (∀ p : ECEFvector α, repr (ecefVal num int p) = "ECEFvector(pvector=".toList ++ columnText num p.pvector ++ ", frame=".toList ++
      repr (frameVal num int p.frame) ++ ", scalar=True)".toList) ∧
    (∀ p : Pvector α, repr (pvecVal num int p) = "Pvector(pvector=".toList ++ columnText num p.pvector ++ ", frame=".toList ++
      repr (localVal num int p.frame) ++ ", scalar=True)".toList) ∧
    (∀ n : Nvector α, repr (localVal num int (.N n)) = "FrameN(nvector=".toList ++ repr (nvecVal num int n) ++ ")".toList) ∧
    (∀ (n : Nvector α) (wa : α), repr (localVal num int (.L n wa)) = "FrameL(nvector=".toList ++ repr (nvecVal num int n) ++
      ", wander_azimuth=".toList ++ num wa ++ ")".toList) ∧
    (∀ (n : Nvector α) (yaw pitch roll : α), repr (localVal num int (.B n yaw pitch roll)) = "FrameB(nvector=".toList ++
      repr (nvecVal num int n) ++ ", yaw=".toList ++ num yaw ++ ", pitch=".toList ++ num pitch ++ ", roll=".toList ++ num roll ++ ")".toList) := by
  have h : ∀ c : Char, (some c != some '_') = !decide (c = '_') := fun c => by simp [bne, Option.some_beq_some]; rfl
  have hf : ∀ F : FrameE α, arrayToList (frameVal num int F) = frameVal num int F := fun F => by simp [frameVal, arrayToList]
  have hn : ∀ n : Nvector α, arrayToList (nvecVal num int n) = nvecVal num int n := fun n => by simp [nvecVal, arrayToList]
  have hl : ∀ L : LocalFrame α, arrayToList (localVal num int L) = localVal num int L := fun L => by cases L <;> simp [localVal, arrayToList]
  refine ⟨fun p => ?_, fun p => ?_, fun p => ?_, fun p => ?_, fun n => ?_, fun n wa => ?_, fun n y q r => ?_⟩
  · rw [geoVal, repr]; simp [List.filter, h, hf, arrayToList, repr, join]
  · rw [nvecVal, repr]; simp [List.filter, h, hf, arrayToList, repr, join, column, columnText]
  · rw [ecefVal, repr]; simp [List.filter, h, hf, arrayToList, repr, join, column, columnText]
  · rw [pvecVal, repr]; simp [List.filter, h, hl, arrayToList, repr, join, column, columnText]
  · rw [localVal, repr]; simp [List.filter, h, hn, join]
  · rw [localVal, repr]; simp [List.filter, h, hn, arrayToList, repr, join]
  · rw [localVal, repr]; simp [List.filter, h, hn, arrayToList, repr, join]

end Nv.Repr
