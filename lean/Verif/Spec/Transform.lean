import Verif.Spec.Intra

/-! What the inverse transforms shall give (RFC 6386, section 14), with numbers of any size. -/

namespace Alfalfa.TransformSpec

/-- The constants are the square root of two times the sine and the cosine of an eighth of a turn, scaled by 65536. -/
def sine (x : Int) : Int := x * 35468 / 65536
def cosine (x : Int) : Int := x + x * 20091 / 65536

/-- The inverse cosine transform of four numbers. -/
def line (v : Fin 4 → Int) : Fin 4 → Int
  | 0 => v 0 + v 2 + (cosine (v 1) + sine (v 3))
  | 1 => v 0 - v 2 + (sine (v 1) - cosine (v 3))
  | 2 => v 0 - v 2 - (sine (v 1) - cosine (v 3))
  | 3 => v 0 + v 2 - (cosine (v 1) + sine (v 3))

/-- The inverse Walsh transform of four numbers. -/
def walshLine (v : Fin 4 → Int) : Fin 4 → Int
  | 0 => v 0 + v 1 + v 2 + v 3
  | 1 => v 0 + v 1 - v 2 - v 3
  | 2 => v 0 - v 1 - v 2 + v 3
  | 3 => v 0 - v 1 + v 2 - v 3

/-- The coefficients are stored row by row. -/
def entry (c : Fin 16 → Int) (column row : Fin 4) : Int := c ⟨4 * row + column, by omega⟩

/-- The transform of the columns. -/
def columns (f : (Fin 4 → Int) → Fin 4 → Int) (c : Fin 16 → Int) (column row : Fin 4) : Int := f (fun k => entry c column k) row

/-- The transform of the columns, then of the rows. -/
def both (f : (Fin 4 → Int) → Fin 4 → Int) (c : Fin 16 → Int) (column row : Fin 4) : Int := f (fun k => columns f c k row) column

/-- The residue at a pixel. -/
def residue (c : Fin 16 → Int) (column row : Fin 4) : Int := (both line c column row + 4) / 8

/-- The DC coefficient of one of the sixteen luma blocks. -/
def walsh (c : Fin 16 → Int) (column row : Fin 4) : Int := (both walshLine c column row + 3) / 8

/-- All of the numbers after the transform of the columns fit in 16 bits. -/
def Fits (f : (Fin 4 → Int) → Fin 4 → Int) (c : Fin 16 → Int) : Prop :=
  ∀ column row, -32768 ≤ columns f c column row ∧ columns f c column row ≤ 32767

end Alfalfa.TransformSpec
