import Verif.Lemmas.Grid34

/-
C47/C48: which grids are built. A grid is built exactly when the array has one dimension per axis, of the length of the axis,
and only the X axis is a circle; every other case raises an exception (ValueError), nothing is undefined.
-/
namespace Pyinterp.Variate

open Pyinterp Pyinterp.Axis

variable {K : Type} [Field K] [LinearOrder K] [IsStrictOrderedRing K] [FloorRing K] [AxisNum K]
variable {T : Type} [LinearOrder T] [AddCommGroup T] [AxisNum T] [ZNum T K]

omit [IsStrictOrderedRing K] [FloorRing K] in
/-- **C47**: the 2-D grids that are built, and what happens to the others. -/
theorem C47_accept (x y : Axis K) (arr : Arr K) :
    ((∃ nx ny : Nat, arr.shape = [nx, ny] ∧ x.size = nx ∧ y.size = ny) ∧ y.isCircle = false →
      ∃ g, mkGrid2D x y arr = .ok g ∧ g.x = x ∧ g.y = y ∧ g.arr = arr) ∧
    (¬ ((∃ nx ny : Nat, arr.shape = [nx, ny] ∧ x.size = nx ∧ y.size = ny) ∧ y.isCircle = false) →
      mkGrid2D x y arr = .error .exn) := by
  constructor
  · rintro ⟨⟨nx, ny, hs, h1, h2⟩, hc⟩
    refine ⟨{ x := x, y := y, arr := arr }, ?_, rfl, rfl, rfl⟩
    simp [mkGrid2D, hs, checkShape, h1, h2, hc]
  · intro hn
    unfold mkGrid2D
    split
    · rfl
    · rename_i hl
      obtain ⟨nx, ny, hs⟩ := List.length_eq_two.mp (not_not.mp hl)
      split
      · rfl
      · rename_i h1
        split
        · rfl
        · rename_i h2
          exfalso
          apply hn
          simp only [checkShape, hs] at h1
          simp at h1 h2
          exact ⟨⟨nx, ny, hs, h1.1, h1.2⟩, h2⟩

omit [IsStrictOrderedRing K] [FloorRing K] [ZNum T K] in
/-- **C48**: the 3-D grids that are built, and what happens to the others. -/
theorem C48_accept (x y : Axis K) (z : Axis T) (arr : Arr K) :
    ((∃ nx ny nz : Nat, arr.shape = [nx, ny, nz] ∧ x.size = nx ∧ y.size = ny ∧ z.size = nz) ∧
        y.isCircle = false ∧ z.isCircle = false →
      ∃ g, mkGrid3D x y z arr = .ok g ∧ g.x = x ∧ g.y = y ∧ g.z = z ∧ g.arr = arr) ∧
    (¬ ((∃ nx ny nz : Nat, arr.shape = [nx, ny, nz] ∧ x.size = nx ∧ y.size = ny ∧ z.size = nz) ∧
        y.isCircle = false ∧ z.isCircle = false) →
      mkGrid3D x y z arr = .error .exn) := by
  constructor
  · rintro ⟨⟨nx, ny, nz, hs, h1, h2, h3⟩, hc, hc'⟩
    refine ⟨{ x := x, y := y, arr := arr, z := z }, ?_, rfl, rfl, rfl, rfl⟩
    simp [mkGrid3D, hs, checkShape, h1, h2, h3, hc, hc']
  · intro hn
    unfold mkGrid3D
    split
    · rfl
    · rename_i hl
      obtain ⟨nx, ny, nz, hs⟩ := List.length_eq_three.mp (not_not.mp hl)
      split
      · rfl
      · rename_i h1
        split
        · rfl
        · rename_i h2
          split
          · rfl
          · rename_i h3
            split
            · rfl
            · rename_i h4
              exfalso
              apply hn
              simp only [checkShape, hs] at h1 h3
              simp at h1 h2 h3 h4
              exact ⟨⟨nx, ny, nz, hs, h1.1, h1.2, h3⟩, h2, h4⟩

omit [IsStrictOrderedRing K] [FloorRing K] [ZNum T K] in
/-- **C48**: the 4-D grids that are built, and what happens to the others. -/
theorem C48_quad_accept (x y : Axis K) (z : Axis T) (u : Axis K) (arr : Arr K) :
    ((∃ nx ny nz nu : Nat, arr.shape = [nx, ny, nz, nu] ∧ x.size = nx ∧ y.size = ny ∧ z.size = nz ∧ u.size = nu) ∧
        y.isCircle = false ∧ z.isCircle = false ∧ u.isCircle = false →
      ∃ g, mkGrid4D x y z u arr = .ok g ∧ g.x = x ∧ g.y = y ∧ g.z = z ∧ g.u = u ∧ g.arr = arr) ∧
    (¬ ((∃ nx ny nz nu : Nat, arr.shape = [nx, ny, nz, nu] ∧ x.size = nx ∧ y.size = ny ∧ z.size = nz ∧ u.size = nu) ∧
        y.isCircle = false ∧ z.isCircle = false ∧ u.isCircle = false) →
      mkGrid4D x y z u arr = .error .exn) := by
  constructor
  · rintro ⟨⟨nx, ny, nz, nu, hs, h1, h2, h3, h4⟩, hc, hc', hc''⟩
    refine ⟨{ x := x, y := y, arr := arr, z := z, u := u }, ?_, rfl, rfl, rfl, rfl, rfl⟩
    simp [mkGrid4D, hs, checkShape, h1, h2, h3, h4, hc, hc', hc'']
  · intro hn
    unfold mkGrid4D
    split
    · rfl
    · rename_i hl
      obtain ⟨nx, ny, nz, nu, hs⟩ : ∃ a b c d, arr.shape = [a, b, c, d] := by
        have hl := not_not.mp hl
        match hh : arr.shape with
        | [a, b, c, d] => exact ⟨a, b, c, d, rfl⟩
        | [] | [_] | [_, _] | [_, _, _] | _ :: _ :: _ :: _ :: _ :: _ => simp [hh] at hl
      split
      · rfl
      · rename_i h1
        split
        · rfl
        · rename_i h2
          split
          · rfl
          · rename_i h3
            split
            · rfl
            · rename_i h4
              split
              · rfl
              · rename_i h5
                split
                · rfl
                · rename_i h6
                  exfalso
                  apply hn
                  simp only [checkShape, hs] at h1 h3 h5
                  simp at h1 h2 h3 h4 h5 h6
                  exact ⟨⟨nx, ny, nz, nu, hs, h1.1, h1.2, h3, h5⟩, h2, h4, h6⟩

/- A grid that is built and one that is refused: the array is transposed. -/
example : (∃ nx ny : Nat, ([4, 3] : List Nat) = [nx, ny] ∧ (4 : Int) = nx ∧ (3 : Int) = ny) ∧
    ¬ (∃ nx ny : Nat, ([3, 4] : List Nat) = [nx, ny] ∧ (4 : Int) = nx ∧ (3 : Int) = ny) :=
  ⟨⟨4, 3, rfl, rfl, rfl⟩, by rintro ⟨nx, ny, h, h1, -⟩; simp at h; omega⟩

end Pyinterp.Variate
