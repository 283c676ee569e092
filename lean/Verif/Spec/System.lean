import Verif.Spec.Lex
import Verif.Model.Ast

/-!
# Coordinate systems as they are written
-/

namespace Adql.Spec

/-- What a written reference frame means; nothing written means ICRS. -/
inductive FrameText : Str → Frame → Prop
  | none : FrameText [] .icrs
  | icrs {t} : SameCI t cs!"ICRS" → FrameText t .icrs
  | j2000 {t} : SameCI t cs!"J2000" → FrameText t .j2000
  | galactic {t} : SameCI t cs!"GALACTIC" → FrameText t .galactic

/-- What a written reference position means; nothing written means GEOCENTER. -/
inductive PosText : Str → Pos → Prop
  | none : PosText [] .geocenter
  | geocenter {t} : SameCI t cs!"GEOCENTER" → PosText t .geocenter

/-- `u` is a coordinate system in quotes, with blanks anywhere between its parts. -/
inductive SysText : Str → CoordSys → Prop
  | mk {b₁ f b₂ p b₃ fr po} : (∀ c ∈ b₁, isSpace c = true) → FrameText f fr →
      (∀ c ∈ b₂, isSpace c = true) → PosText p po → (∀ c ∈ b₃, isSpace c = true) →
      SysText ('\'' :: (b₁ ++ (f ++ (b₂ ++ (p ++ (b₃ ++ ['\'']))))) ) ⟨fr, po⟩

end Adql.Spec
