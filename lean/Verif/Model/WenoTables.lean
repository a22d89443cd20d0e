import Verif.Model.Basic
import Mathlib.Algebra.Field.Basic
import Mathlib.Algebra.BigOperators.Group.Finset.Basic

/-!
The reconstruction kernels `weno5` ... `weno17` of /repo/src/pyclaw/sharpclaw/weno.f90 (a file generated by PyWENO) and `weno_comp` of
/repo/src/pyclaw/sharpclaw/reconstruct.f90:94-127.

All seven kernels consist of the same kinds of assignments and differ in their literals only, so they are represented by tables of
literals. An entry holds the literal as printed (`mant / 10^dec`) and the fraction it abbreviates (`num / den`), which is the value the
model computes with; `C85_literals` shows that printed literal and fraction agree within one unit of the last printed digit.
The terms are in the order of the file (the sums `fs0` and `fs1` are taken in increasing order of `r`). The literal `1.0e-36` is the parameter `eps`.
-/
namespace PyClaw

/-- A literal of weno.f90 with its sign. -/
structure Coef where
  num : Int
  den : Nat
  mant : Int
  dec : Nat

/-- The literals of one kernel: `sigma` lists, for `sigma0`, `sigma1`, ..., the terms `c*q(m,i+a)*q(m,i+b)` as `(a, b, c)`; `omega` the
numerators of `omega0`, ... with the number of the `sigma` in the denominator; `fr` the terms `c*q(m,i+a)` of `fr0`, ... as `(a, c)`. -/
structure WenoTable where
  k : Nat
  sigma : List (List (Int × Int × Coef))
  omega : List (Coef × Nat)
  fr : List (List (Int × Coef))

/-- `weno5`, weno.f90:5-83. -/
def weno5Table : WenoTable where
  k := 3
  sigma := [
    -- sigma0, 34-39
    [(0, 0, ⟨10, 3, 33333333333333333333333333333333333, 34⟩),
     (0, 1, ⟨-31, 3, -10333333333333333333333333333333333, 33⟩),
     (0, 2, ⟨11, 3, 36666666666666666666666666666666667, 34⟩),
     (1, 1, ⟨25, 3, 83333333333333333333333333333333333, 34⟩),
     (1, 2, ⟨-19, 3, -63333333333333333333333333333333333, 34⟩),
     (2, 2, ⟨4, 3, 13333333333333333333333333333333333, 34⟩)],
    -- sigma1, 40-45
    [(0, 0, ⟨13, 3, 43333333333333333333333333333333333, 34⟩),
     (0, 1, ⟨-13, 3, -43333333333333333333333333333333333, 34⟩),
     (0, -1, ⟨-13, 3, -43333333333333333333333333333333333, 34⟩),
     (1, 1, ⟨4, 3, 13333333333333333333333333333333333, 34⟩),
     (1, -1, ⟨5, 3, 16666666666666666666666666666666667, 34⟩),
     (-1, -1, ⟨4, 3, 13333333333333333333333333333333333, 34⟩)],
    -- sigma2, 46-51
    [(0, 0, ⟨10, 3, 33333333333333333333333333333333333, 34⟩),
     (0, -1, ⟨-31, 3, -10333333333333333333333333333333333, 33⟩),
     (0, -2, ⟨11, 3, 36666666666666666666666666666666667, 34⟩),
     (-1, -1, ⟨25, 3, 83333333333333333333333333333333333, 34⟩),
     (-1, -2, ⟨-19, 3, -63333333333333333333333333333333333, 34⟩),
     (-2, -2, ⟨4, 3, 13333333333333333333333333333333333, 34⟩)]]
  -- 52-57
  omega := [(⟨1, 10, 1, 1⟩, 0),
    (⟨3, 5, 6, 1⟩, 1),
    (⟨3, 10, 3, 1⟩, 2),
    (⟨3, 10, 3, 1⟩, 0),
    (⟨3, 5, 6, 1⟩, 1),
    (⟨1, 10, 1, 1⟩, 2)]
  fr := [
    -- fr0, 58-60
    [(0, ⟨11, 6, 18333333333333333333333333333333333, 34⟩),
     (1, ⟨-7, 6, -11666666666666666666666666666666667, 34⟩),
     (2, ⟨1, 3, 33333333333333333333333333333333333, 35⟩)],
    -- fr1, 61-63
    [(0, ⟨5, 6, 83333333333333333333333333333333333, 35⟩),
     (1, ⟨-1, 6, -16666666666666666666666666666666667, 35⟩),
     (-1, ⟨1, 3, 33333333333333333333333333333333333, 35⟩)],
    -- fr2, 64-66
    [(0, ⟨1, 3, 33333333333333333333333333333333333, 35⟩),
     (-1, ⟨5, 6, 83333333333333333333333333333333333, 35⟩),
     (-2, ⟨-1, 6, -16666666666666666666666666666666667, 35⟩)],
    -- fr3, 67-69
    [(0, ⟨1, 3, 33333333333333333333333333333333333, 35⟩),
     (1, ⟨5, 6, 83333333333333333333333333333333333, 35⟩),
     (2, ⟨-1, 6, -16666666666666666666666666666666667, 35⟩)],
    -- fr4, 70-72
    [(0, ⟨5, 6, 83333333333333333333333333333333333, 35⟩),
     (1, ⟨1, 3, 33333333333333333333333333333333333, 35⟩),
     (-1, ⟨-1, 6, -16666666666666666666666666666666667, 35⟩)],
    -- fr5, 73-75
    [(0, ⟨11, 6, 18333333333333333333333333333333333, 34⟩),
     (-1, ⟨-7, 6, -11666666666666666666666666666666667, 34⟩),
     (-2, ⟨1, 3, 33333333333333333333333333333333333, 35⟩)]]

/-- `weno7`, weno.f90:85-201. -/
def weno7Table : WenoTable where
  k := 4
  sigma := [
    -- sigma0, 119-127
    [(0, 0, ⟨2107, 240, 87791666666666666666666666666666667, 34⟩),
     (0, 1, ⟨-1567, 40, -39175, 3⟩),
     (0, 2, ⟨3521, 120, 29341666666666666666666666666666667, 33⟩),
     (0, 3, ⟨-309, 40, -7725, 3⟩),
     (1, 1, ⟨11003, 240, 45845833333333333333333333333333333, 33⟩),
     (1, 2, ⟨-8623, 120, -71858333333333333333333333333333333, 33⟩),
     (1, 3, ⟨2321, 120, 19341666666666666666666666666666667, 33⟩),
     (2, 2, ⟨7043, 240, 29345833333333333333333333333333333, 33⟩),
     (2, 3, ⟨-647, 40, -16175, 3⟩),
     (3, 3, ⟨547, 240, 22791666666666666666666666666666667, 34⟩)],
    -- sigma1, 128-137
    [(0, 0, ⟨3443, 240, 14345833333333333333333333333333333, 33⟩),
     (0, 1, ⟨-2983, 120, -24858333333333333333333333333333333, 33⟩),
     (0, 2, ⟨267, 40, 6675, 3⟩),
     (0, -1, ⟨-1261, 120, -10508333333333333333333333333333333, 33⟩),
     (1, 1, ⟨2843, 240, 11845833333333333333333333333333333, 33⟩),
     (1, 2, ⟨-821, 120, -68416666666666666666666666666666667, 34⟩),
     (1, -1, ⟨961, 120, 80083333333333333333333333333333333, 34⟩),
     (2, 2, ⟨89, 80, 11125, 4⟩),
     (2, -1, ⟨-247, 120, -20583333333333333333333333333333333, 34⟩),
     (-1, -1, ⟨547, 240, 22791666666666666666666666666666667, 34⟩)],
    -- sigma2, 138-147
    [(0, 0, ⟨3443, 240, 14345833333333333333333333333333333, 33⟩),
     (0, 1, ⟨-1261, 120, -10508333333333333333333333333333333, 33⟩),
     (0, -1, ⟨-2983, 120, -24858333333333333333333333333333333, 33⟩),
     (0, -2, ⟨267, 40, 6675, 3⟩),
     (1, 1, ⟨547, 240, 22791666666666666666666666666666667, 34⟩),
     (1, -1, ⟨961, 120, 80083333333333333333333333333333333, 34⟩),
     (1, -2, ⟨-247, 120, -20583333333333333333333333333333333, 34⟩),
     (-1, -1, ⟨2843, 240, 11845833333333333333333333333333333, 33⟩),
     (-1, -2, ⟨-821, 120, -68416666666666666666666666666666667, 34⟩),
     (-2, -2, ⟨89, 80, 11125, 4⟩)],
    -- sigma3, 148-156
    [(0, 0, ⟨2107, 240, 87791666666666666666666666666666667, 34⟩),
     (0, -1, ⟨-1567, 40, -39175, 3⟩),
     (0, -2, ⟨3521, 120, 29341666666666666666666666666666667, 33⟩),
     (0, -3, ⟨-309, 40, -7725, 3⟩),
     (-1, -1, ⟨11003, 240, 45845833333333333333333333333333333, 33⟩),
     (-1, -2, ⟨-8623, 120, -71858333333333333333333333333333333, 33⟩),
     (-1, -3, ⟨2321, 120, 19341666666666666666666666666666667, 33⟩),
     (-2, -2, ⟨7043, 240, 29345833333333333333333333333333333, 33⟩),
     (-2, -3, ⟨-647, 40, -16175, 3⟩),
     (-3, -3, ⟨547, 240, 22791666666666666666666666666666667, 34⟩)]]
  -- 157-164
  omega := [(⟨1, 35, 28571428571428571428571428571428571, 36⟩, 0),
    (⟨12, 35, 34285714285714285714285714285714286, 35⟩, 1),
    (⟨18, 35, 51428571428571428571428571428571429, 35⟩, 2),
    (⟨4, 35, 11428571428571428571428571428571429, 35⟩, 3),
    (⟨4, 35, 11428571428571428571428571428571429, 35⟩, 0),
    (⟨18, 35, 51428571428571428571428571428571429, 35⟩, 1),
    (⟨12, 35, 34285714285714285714285714285714286, 35⟩, 2),
    (⟨1, 35, 28571428571428571428571428571428571, 36⟩, 3)]
  fr := [
    -- fr0, 165-167
    [(0, ⟨25, 12, 20833333333333333333333333333333333, 34⟩),
     (1, ⟨-23, 12, -19166666666666666666666666666666667, 34⟩),
     (2, ⟨13, 12, 10833333333333333333333333333333333, 34⟩),
     (3, ⟨-1, 4, -25, 2⟩)],
    -- fr1, 168-171
    [(0, ⟨13, 12, 10833333333333333333333333333333333, 34⟩),
     (1, ⟨-5, 12, -41666666666666666666666666666666667, 35⟩),
     (2, ⟨1, 12, 83333333333333333333333333333333333, 36⟩),
     (-1, ⟨1, 4, 25, 2⟩)],
    -- fr2, 172-175
    [(0, ⟨7, 12, 58333333333333333333333333333333333, 35⟩),
     (1, ⟨-1, 12, -83333333333333333333333333333333333, 36⟩),
     (-1, ⟨7, 12, 58333333333333333333333333333333333, 35⟩),
     (-2, ⟨-1, 12, -83333333333333333333333333333333333, 36⟩)],
    -- fr3, 176-178
    [(0, ⟨1, 4, 25, 2⟩),
     (-1, ⟨13, 12, 10833333333333333333333333333333333, 34⟩),
     (-2, ⟨-5, 12, -41666666666666666666666666666666667, 35⟩),
     (-3, ⟨1, 12, 83333333333333333333333333333333333, 36⟩)],
    -- fr4, 179-181
    [(0, ⟨1, 4, 25, 2⟩),
     (1, ⟨13, 12, 10833333333333333333333333333333333, 34⟩),
     (2, ⟨-5, 12, -41666666666666666666666666666666667, 35⟩),
     (3, ⟨1, 12, 83333333333333333333333333333333333, 36⟩)],
    -- fr5, 182-185
    [(0, ⟨7, 12, 58333333333333333333333333333333333, 35⟩),
     (1, ⟨7, 12, 58333333333333333333333333333333333, 35⟩),
     (2, ⟨-1, 12, -83333333333333333333333333333333333, 36⟩),
     (-1, ⟨-1, 12, -83333333333333333333333333333333333, 36⟩)],
    -- fr6, 186-188
    [(0, ⟨13, 12, 10833333333333333333333333333333333, 34⟩),
     (1, ⟨1, 4, 25, 2⟩),
     (-1, ⟨-5, 12, -41666666666666666666666666666666667, 35⟩),
     (-2, ⟨1, 12, 83333333333333333333333333333333333, 36⟩)],
    -- fr7, 189-191
    [(0, ⟨25, 12, 20833333333333333333333333333333333, 34⟩),
     (-1, ⟨-23, 12, -19166666666666666666666666666666667, 34⟩),
     (-2, ⟨13, 12, 10833333333333333333333333333333333, 34⟩),
     (-3, ⟨-1, 4, -25, 2⟩)]]

/-- `weno9`, weno.f90:203-375. -/
def weno9Table : WenoTable where
  k := 5
  sigma := [
    -- sigma0, 242-256
    [(0, 0, ⟨53959, 2520, 21412301587301587301587301587301587, 33⟩),
     (0, 1, ⟨-649501, 5040, -12886924603174603174603174603174603, 32⟩),
     (0, 2, ⟨252941, 1680, 15056011904761904761904761904761905, 32⟩),
     (0, 3, ⟨-411487, 5040, -81644246031746031746031746031746032, 33⟩),
     (0, 4, ⟨86329, 5040, 17128769841269841269841269841269841, 33⟩),
     (1, 1, ⟨1020563, 5040, 20249265873015873015873015873015873, 32⟩),
     (1, 2, ⟨-68391, 140, -48850714285714285714285714285714286, 32⟩),
     (1, 3, ⟨679229, 2520, 26953531746031746031746031746031746, 32⟩),
     (1, 4, ⟨-288007, 5040, -57144246031746031746031746031746032, 33⟩),
     (2, 2, ⟨507131, 1680, 30186369047619047619047619047619048, 32⟩),
     (2, 3, ⟨-142033, 420, -33817380952380952380952380952380952, 32⟩),
     (2, 4, ⟨121621, 1680, 72393452380952380952380952380952381, 33⟩),
     (3, 3, ⟨482963, 5040, 95825992063492063492063492063492063, 33⟩),
     (3, 4, ⟨-208501, 5040, -41369246031746031746031746031746032, 33⟩),
     (4, 4, ⟨11329, 2520, 44956349206349206349206349206349206, 34⟩)],
    -- sigma1, 257-271
    [(0, 0, ⟨242723, 5040, 48159325396825396825396825396825397, 33⟩),
     (0, 1, ⟨-25499, 210, -12142380952380952380952380952380952, 32⟩),
     (0, 2, ⟨168509, 2520, 66868650793650793650793650793650794, 33⟩),
     (0, 3, ⟨-70237, 5040, -13935912698412698412698412698412698, 33⟩),
     (0, -1, ⟨-140251, 5040, -27827579365079365079365079365079365, 33⟩),
     (1, 1, ⟨135431, 1680, 80613690476190476190476190476190476, 33⟩),
     (1, 2, ⟨-3229, 35, -92257142857142857142857142857142857, 33⟩),
     (1, 3, ⟨33071, 1680, 19685119047619047619047619047619048, 33⟩),
     (1, -1, ⟨55051, 1680, 32768452380952380952380952380952381, 33⟩),
     (2, 2, ⟨138563, 5040, 2749265873015873015873015873015873, 32⟩),
     (2, 3, ⟨-60871, 5040, -12077579365079365079365079365079365, 33⟩),
     (2, -1, ⟨-88297, 5040, -17519246031746031746031746031746032, 33⟩),
     (3, 3, ⟨1727, 1260, 13706349206349206349206349206349206, 34⟩),
     (3, -1, ⟨18079, 5040, 35871031746031746031746031746031746, 34⟩),
     (-1, -1, ⟨11329, 2520, 44956349206349206349206349206349206, 34⟩)],
    -- sigma2, 272-286
    [(0, 0, ⟨77051, 1680, 45863690476190476190476190476190476, 33⟩),
     (0, 1, ⟨-24923, 420, -5934047619047619047619047619047619, 32⟩),
     (0, 2, ⟨7547, 560, 13476785714285714285714285714285714, 33⟩),
     (0, -1, ⟨-24923, 420, -5934047619047619047619047619047619, 32⟩),
     (0, -2, ⟨7547, 560, 13476785714285714285714285714285714, 33⟩),
     (1, 1, ⟨104963, 5040, 20825992063492063492063492063492063, 33⟩),
     (1, 2, ⟨-51001, 5040, -10119246031746031746031746031746032, 33⟩),
     (1, -1, ⟨89549, 2520, 3553531746031746031746031746031746, 32⟩),
     (1, -2, ⟨-38947, 5040, -77275793650793650793650793650793651, 34⟩),
     (2, 2, ⟨1727, 1260, 13706349206349206349206349206349206, 34⟩),
     (2, -1, ⟨-38947, 5040, -77275793650793650793650793650793651, 34⟩),
     (2, -2, ⟨8209, 5040, 16287698412698412698412698412698413, 34⟩),
     (-1, -1, ⟨104963, 5040, 20825992063492063492063492063492063, 33⟩),
     (-1, -2, ⟨-51001, 5040, -10119246031746031746031746031746032, 33⟩),
     (-2, -2, ⟨1727, 1260, 13706349206349206349206349206349206, 34⟩)],
    -- sigma3, 287-301
    [(0, 0, ⟨242723, 5040, 48159325396825396825396825396825397, 33⟩),
     (0, 1, ⟨-140251, 5040, -27827579365079365079365079365079365, 33⟩),
     (0, -1, ⟨-25499, 210, -12142380952380952380952380952380952, 32⟩),
     (0, -2, ⟨168509, 2520, 66868650793650793650793650793650794, 33⟩),
     (0, -3, ⟨-70237, 5040, -13935912698412698412698412698412698, 33⟩),
     (1, 1, ⟨11329, 2520, 44956349206349206349206349206349206, 34⟩),
     (1, -1, ⟨55051, 1680, 32768452380952380952380952380952381, 33⟩),
     (1, -2, ⟨-88297, 5040, -17519246031746031746031746031746032, 33⟩),
     (1, -3, ⟨18079, 5040, 35871031746031746031746031746031746, 34⟩),
     (-1, -1, ⟨135431, 1680, 80613690476190476190476190476190476, 33⟩),
     (-1, -2, ⟨-3229, 35, -92257142857142857142857142857142857, 33⟩),
     (-1, -3, ⟨33071, 1680, 19685119047619047619047619047619048, 33⟩),
     (-2, -2, ⟨138563, 5040, 2749265873015873015873015873015873, 32⟩),
     (-2, -3, ⟨-60871, 5040, -12077579365079365079365079365079365, 33⟩),
     (-3, -3, ⟨1727, 1260, 13706349206349206349206349206349206, 34⟩)],
    -- sigma4, 302-316
    [(0, 0, ⟨53959, 2520, 21412301587301587301587301587301587, 33⟩),
     (0, -1, ⟨-649501, 5040, -12886924603174603174603174603174603, 32⟩),
     (0, -2, ⟨252941, 1680, 15056011904761904761904761904761905, 32⟩),
     (0, -3, ⟨-411487, 5040, -81644246031746031746031746031746032, 33⟩),
     (0, -4, ⟨86329, 5040, 17128769841269841269841269841269841, 33⟩),
     (-1, -1, ⟨1020563, 5040, 20249265873015873015873015873015873, 32⟩),
     (-1, -2, ⟨-68391, 140, -48850714285714285714285714285714286, 32⟩),
     (-1, -3, ⟨679229, 2520, 26953531746031746031746031746031746, 32⟩),
     (-1, -4, ⟨-288007, 5040, -57144246031746031746031746031746032, 33⟩),
     (-2, -2, ⟨507131, 1680, 30186369047619047619047619047619048, 32⟩),
     (-2, -3, ⟨-142033, 420, -33817380952380952380952380952380952, 32⟩),
     (-2, -4, ⟨121621, 1680, 72393452380952380952380952380952381, 33⟩),
     (-3, -3, ⟨482963, 5040, 95825992063492063492063492063492063, 33⟩),
     (-3, -4, ⟨-208501, 5040, -41369246031746031746031746031746032, 33⟩),
     (-4, -4, ⟨11329, 2520, 44956349206349206349206349206349206, 34⟩)]]
  -- 317-326
  omega := [(⟨1, 126, 79365079365079365079365079365079365, 37⟩, 0),
    (⟨10, 63, 15873015873015873015873015873015873, 35⟩, 1),
    (⟨10, 21, 47619047619047619047619047619047619, 35⟩, 2),
    (⟨20, 63, 31746031746031746031746031746031746, 35⟩, 3),
    (⟨5, 126, 39682539682539682539682539682539683, 36⟩, 4),
    (⟨5, 126, 39682539682539682539682539682539683, 36⟩, 0),
    (⟨20, 63, 31746031746031746031746031746031746, 35⟩, 1),
    (⟨10, 21, 47619047619047619047619047619047619, 35⟩, 2),
    (⟨10, 63, 15873015873015873015873015873015873, 35⟩, 3),
    (⟨1, 126, 79365079365079365079365079365079365, 37⟩, 4)]
  fr := [
    -- fr0, 327-330
    [(0, ⟨137, 60, 22833333333333333333333333333333333, 34⟩),
     (1, ⟨-163, 60, -27166666666666666666666666666666667, 34⟩),
     (2, ⟨137, 60, 22833333333333333333333333333333333, 34⟩),
     (3, ⟨-21, 20, -105, 2⟩),
     (4, ⟨1, 5, 2, 1⟩)],
    -- fr1, 331-334
    [(0, ⟨77, 60, 12833333333333333333333333333333333, 34⟩),
     (1, ⟨-43, 60, -71666666666666666666666666666666667, 35⟩),
     (2, ⟨17, 60, 28333333333333333333333333333333333, 35⟩),
     (3, ⟨-1, 20, -5, 2⟩),
     (-1, ⟨1, 5, 2, 1⟩)],
    -- fr2, 335-338
    [(0, ⟨47, 60, 78333333333333333333333333333333333, 35⟩),
     (1, ⟨-13, 60, -21666666666666666666666666666666667, 35⟩),
     (2, ⟨1, 30, 33333333333333333333333333333333333, 36⟩),
     (-1, ⟨9, 20, 45, 2⟩),
     (-2, ⟨-1, 20, -5, 2⟩)],
    -- fr3, 339-342
    [(0, ⟨9, 20, 45, 2⟩),
     (1, ⟨-1, 20, -5, 2⟩),
     (-1, ⟨47, 60, 78333333333333333333333333333333333, 35⟩),
     (-2, ⟨-13, 60, -21666666666666666666666666666666667, 35⟩),
     (-3, ⟨1, 30, 33333333333333333333333333333333333, 36⟩)],
    -- fr4, 343-346
    [(0, ⟨1, 5, 2, 1⟩),
     (-1, ⟨77, 60, 12833333333333333333333333333333333, 34⟩),
     (-2, ⟨-43, 60, -71666666666666666666666666666666667, 35⟩),
     (-3, ⟨17, 60, 28333333333333333333333333333333333, 35⟩),
     (-4, ⟨-1, 20, -5, 2⟩)],
    -- fr5, 347-350
    [(0, ⟨1, 5, 2, 1⟩),
     (1, ⟨77, 60, 12833333333333333333333333333333333, 34⟩),
     (2, ⟨-43, 60, -71666666666666666666666666666666667, 35⟩),
     (3, ⟨17, 60, 28333333333333333333333333333333333, 35⟩),
     (4, ⟨-1, 20, -5, 2⟩)],
    -- fr6, 351-354
    [(0, ⟨9, 20, 45, 2⟩),
     (1, ⟨47, 60, 78333333333333333333333333333333333, 35⟩),
     (2, ⟨-13, 60, -21666666666666666666666666666666667, 35⟩),
     (3, ⟨1, 30, 33333333333333333333333333333333333, 36⟩),
     (-1, ⟨-1, 20, -5, 2⟩)],
    -- fr7, 355-357
    [(0, ⟨47, 60, 78333333333333333333333333333333333, 35⟩),
     (1, ⟨9, 20, 45, 2⟩),
     (2, ⟨-1, 20, -5, 2⟩),
     (-1, ⟨-13, 60, -21666666666666666666666666666666667, 35⟩),
     (-2, ⟨1, 30, 33333333333333333333333333333333333, 36⟩)],
    -- fr8, 358-361
    [(0, ⟨77, 60, 12833333333333333333333333333333333, 34⟩),
     (1, ⟨1, 5, 2, 1⟩),
     (-1, ⟨-43, 60, -71666666666666666666666666666666667, 35⟩),
     (-2, ⟨17, 60, 28333333333333333333333333333333333, 35⟩),
     (-3, ⟨-1, 20, -5, 2⟩)],
    -- fr9, 362-365
    [(0, ⟨137, 60, 22833333333333333333333333333333333, 34⟩),
     (-1, ⟨-163, 60, -27166666666666666666666666666666667, 34⟩),
     (-2, ⟨137, 60, 22833333333333333333333333333333333, 34⟩),
     (-3, ⟨-21, 20, -105, 2⟩),
     (-4, ⟨1, 5, 2, 1⟩)]]

/-- `weno11`, weno.f90:377-626. -/
def weno11Table : WenoTable where
  k := 6
  sigma := [
    -- sigma0, 421-441
    [(0, 0, ⟨6150211, 120960, 50844998346560846560846560846560847, 33⟩),
     (0, 1, ⟨-2966279, 7560, -39236494708994708994708994708994709, 32⟩),
     (0, 2, ⟨4762921, 7560, 63001600529100529100529100529100529, 32⟩),
     (0, 3, ⟨-15848531, 30240, -5240916335978835978835978835978836, 31⟩),
     (0, 4, ⟨2706017, 12096, 22371172288359788359788359788359788, 32⟩),
     (0, 5, ⟨-235637, 6048, -3896114417989417989417989417989418, 32⟩),
     (1, 1, ⟨31617079, 40320, 78415374503968253968253968253968254, 32⟩),
     (1, 2, ⟨-25980937, 10080, -25774739087301587301587301587301587, 31⟩),
     (1, 3, ⟨32862709, 15120, 21734595899470899470899470899470899, 31⟩),
     (1, 4, ⟨-1048211, 1120, -93590267857142857142857142857142857, 32⟩),
     (1, 5, ⟨661145, 4032, 16397445436507936507936507936507937, 32⟩),
     (2, 2, ⟨21703781, 10080, 2153152876984126984126984126984127, 30⟩),
     (2, 3, ⟨-6937561, 1890, -36706671957671957671957671957671958, 31⟩),
     (2, 4, ⟨2674951, 1680, 15922327380952380952380952380952381, 31⟩),
     (2, 5, ⟨-314063, 1120, -28041339285714285714285714285714286, 32⟩),
     (3, 3, ⟨47689393, 30240, 15770301917989417989417989417989418, 31⟩),
     (3, 4, ⟨-41615261, 30240, -13761660383597883597883597883597884, 31⟩),
     (3, 5, ⟨1840141, 7560, 24340489417989417989417989417989418, 32⟩),
     (4, 4, ⟨12160229, 40320, 30159298115079365079365079365079365, 32⟩),
     (4, 5, ⟨-539591, 5040, -10706170634920634920634920634920635, 32⟩),
     (5, 5, ⟨384187, 40320, 95284474206349206349206349206349206, 34⟩)],
    -- sigma1, 442-462
    [(0, 0, ⟨19365967, 120960, 16010224041005291005291005291005291, 32⟩),
     (0, 1, ⟨-16306061, 30240, -53922159391534391534391534391534392, 32⟩),
     (0, 2, ⟨6881719, 15120, 4551401455026455026455026455026455, 31⟩),
     (0, 3, ⟨-5877617, 30240, -19436564153439153439153439153439153, 32⟩),
     (0, 4, ⟨2033509, 60480, 33622833994708994708994708994708995, 33⟩),
     (0, -1, ⟨-1139749, 15120, -75380224867724867724867724867724868, 33⟩),
     (1, 1, ⟨4721851, 10080, 46843759920634920634920634920634921, 32⟩),
     (1, 2, ⟨-169859, 210, -80885238095238095238095238095238095, 32⟩),
     (1, 3, ⟨5300629, 15120, 35057070105820105820105820105820106, 32⟩),
     (1, 4, ⟨-68601, 1120, -61250892857142857142857142857142857, 33⟩),
     (1, -1, ⟨61427, 504, 12187896825396825396825396825396825, 32⟩),
     (2, 2, ⟨1197047, 3360, 3562639880952380952380952380952381, 31⟩),
     (2, 3, ⟨-9478331, 30240, -31343687169312169312169312169312169, 32⟩),
     (2, 4, ⟨139471, 2520, 55345634920634920634920634920634921, 33⟩),
     (2, -1, ⟨-1015303, 10080, -10072450396825396825396825396825397, 32⟩),
     (3, 3, ⟨8449957, 120960, 69857448743386243386243386243386243, 33⟩),
     (3, 4, ⟨-188483, 7560, -24931613756613756613756613756613757, 33⟩),
     (3, -1, ⟨2567287, 60480, 42448528439153439153439153439153439, 33⟩),
     (4, 4, ⟨90593, 40320, 22468501984126984126984126984126984, 34⟩),
     (4, -1, ⟨-73379, 10080, -72796626984126984126984126984126984, 34⟩),
     (-1, -1, ⟨384187, 40320, 95284474206349206349206349206349206, 34⟩)],
    -- sigma2, 463-483
    [(0, 0, ⟨4877743, 30240, 16130102513227513227513227513227513, 32⟩),
     (0, 1, ⟨-559651, 1890, -29611164021164021164021164021164021, 32⟩),
     (0, 2, ⟨1991239, 15120, 13169570105820105820105820105820106, 32⟩),
     (0, 3, ⟨-139633, 6048, -23087466931216931216931216931216931, 33⟩),
     (0, -1, ⟨-5106971, 30240, -16888131613756613756613756613756614, 32⟩),
     (0, -2, ⟨255397, 7560, 33782671957671957671957671957671958, 33⟩),
     (1, 1, ⟨159219, 1120, 14215982142857142857142857142857143, 32⟩),
     (1, 2, ⟨-1323367, 10080, -13128640873015873015873015873015873, 32⟩),
     (1, 3, ⟨178999, 7560, 23677116402116402116402116402116402, 33⟩),
     (1, -1, ⟨248681, 1680, 14802440476190476190476190476190476, 32⟩),
     (1, -2, ⟨-288521, 10080, -28623115079365079365079365079365079, 33⟩),
     (2, 2, ⟨141661, 4480, 31620758928571428571428571428571429, 33⟩),
     (2, 3, ⟨-178747, 15120, -11821891534391534391534391534391534, 33⟩),
     (2, -1, ⟨-643999, 10080, -63888789682539682539682539682539683, 33⟩),
     (2, -2, ⟨243127, 20160, 12059871031746031746031746031746032, 33⟩),
     (3, 3, ⟨139633, 120960, 11543733465608465608465608465608466, 34⟩),
     (3, -1, ⟨662503, 60480, 10954083994708994708994708994708995, 33⟩),
     (3, -2, ⟨-12281, 6048, -20305886243386243386243386243386243, 34⟩),
     (-1, -1, ⟨1884439, 40320, 46737078373015873015873015873015873, 33⟩),
     (-1, -2, ⟨-1240, 63, -19682539682539682539682539682539683, 33⟩),
     (-2, -2, ⟨90593, 40320, 22468501984126984126984126984126984, 34⟩)],
    -- sigma3, 484-504
    [(0, 0, ⟨4877743, 30240, 16130102513227513227513227513227513, 32⟩),
     (0, 1, ⟨-5106971, 30240, -16888131613756613756613756613756614, 32⟩),
     (0, 2, ⟨255397, 7560, 33782671957671957671957671957671958, 33⟩),
     (0, -1, ⟨-559651, 1890, -29611164021164021164021164021164021, 32⟩),
     (0, -2, ⟨1991239, 15120, 13169570105820105820105820105820106, 32⟩),
     (0, -3, ⟨-139633, 6048, -23087466931216931216931216931216931, 33⟩),
     (1, 1, ⟨1884439, 40320, 46737078373015873015873015873015873, 33⟩),
     (1, 2, ⟨-1240, 63, -19682539682539682539682539682539683, 33⟩),
     (1, -1, ⟨248681, 1680, 14802440476190476190476190476190476, 32⟩),
     (1, -2, ⟨-643999, 10080, -63888789682539682539682539682539683, 33⟩),
     (1, -3, ⟨662503, 60480, 10954083994708994708994708994708995, 33⟩),
     (2, 2, ⟨90593, 40320, 22468501984126984126984126984126984, 34⟩),
     (2, -1, ⟨-288521, 10080, -28623115079365079365079365079365079, 33⟩),
     (2, -2, ⟨243127, 20160, 12059871031746031746031746031746032, 33⟩),
     (2, -3, ⟨-12281, 6048, -20305886243386243386243386243386243, 34⟩),
     (-1, -1, ⟨159219, 1120, 14215982142857142857142857142857143, 32⟩),
     (-1, -2, ⟨-1323367, 10080, -13128640873015873015873015873015873, 32⟩),
     (-1, -3, ⟨178999, 7560, 23677116402116402116402116402116402, 33⟩),
     (-2, -2, ⟨141661, 4480, 31620758928571428571428571428571429, 33⟩),
     (-2, -3, ⟨-178747, 15120, -11821891534391534391534391534391534, 33⟩),
     (-3, -3, ⟨139633, 120960, 11543733465608465608465608465608466, 34⟩)],
    -- sigma4, 505-525
    [(0, 0, ⟨19365967, 120960, 16010224041005291005291005291005291, 32⟩),
     (0, 1, ⟨-1139749, 15120, -75380224867724867724867724867724868, 33⟩),
     (0, -1, ⟨-16306061, 30240, -53922159391534391534391534391534392, 32⟩),
     (0, -2, ⟨6881719, 15120, 4551401455026455026455026455026455, 31⟩),
     (0, -3, ⟨-5877617, 30240, -19436564153439153439153439153439153, 32⟩),
     (0, -4, ⟨2033509, 60480, 33622833994708994708994708994708995, 33⟩),
     (1, 1, ⟨384187, 40320, 95284474206349206349206349206349206, 34⟩),
     (1, -1, ⟨61427, 504, 12187896825396825396825396825396825, 32⟩),
     (1, -2, ⟨-1015303, 10080, -10072450396825396825396825396825397, 32⟩),
     (1, -3, ⟨2567287, 60480, 42448528439153439153439153439153439, 33⟩),
     (1, -4, ⟨-73379, 10080, -72796626984126984126984126984126984, 34⟩),
     (-1, -1, ⟨4721851, 10080, 46843759920634920634920634920634921, 32⟩),
     (-1, -2, ⟨-169859, 210, -80885238095238095238095238095238095, 32⟩),
     (-1, -3, ⟨5300629, 15120, 35057070105820105820105820105820106, 32⟩),
     (-1, -4, ⟨-68601, 1120, -61250892857142857142857142857142857, 33⟩),
     (-2, -2, ⟨1197047, 3360, 3562639880952380952380952380952381, 31⟩),
     (-2, -3, ⟨-9478331, 30240, -31343687169312169312169312169312169, 32⟩),
     (-2, -4, ⟨139471, 2520, 55345634920634920634920634920634921, 33⟩),
     (-3, -3, ⟨8449957, 120960, 69857448743386243386243386243386243, 33⟩),
     (-3, -4, ⟨-188483, 7560, -24931613756613756613756613756613757, 33⟩),
     (-4, -4, ⟨90593, 40320, 22468501984126984126984126984126984, 34⟩)],
    -- sigma5, 526-546
    [(0, 0, ⟨6150211, 120960, 50844998346560846560846560846560847, 33⟩),
     (0, -1, ⟨-2966279, 7560, -39236494708994708994708994708994709, 32⟩),
     (0, -2, ⟨4762921, 7560, 63001600529100529100529100529100529, 32⟩),
     (0, -3, ⟨-15848531, 30240, -5240916335978835978835978835978836, 31⟩),
     (0, -4, ⟨2706017, 12096, 22371172288359788359788359788359788, 32⟩),
     (0, -5, ⟨-235637, 6048, -3896114417989417989417989417989418, 32⟩),
     (-1, -1, ⟨31617079, 40320, 78415374503968253968253968253968254, 32⟩),
     (-1, -2, ⟨-25980937, 10080, -25774739087301587301587301587301587, 31⟩),
     (-1, -3, ⟨32862709, 15120, 21734595899470899470899470899470899, 31⟩),
     (-1, -4, ⟨-1048211, 1120, -93590267857142857142857142857142857, 32⟩),
     (-1, -5, ⟨661145, 4032, 16397445436507936507936507936507937, 32⟩),
     (-2, -2, ⟨21703781, 10080, 2153152876984126984126984126984127, 30⟩),
     (-2, -3, ⟨-6937561, 1890, -36706671957671957671957671957671958, 31⟩),
     (-2, -4, ⟨2674951, 1680, 15922327380952380952380952380952381, 31⟩),
     (-2, -5, ⟨-314063, 1120, -28041339285714285714285714285714286, 32⟩),
     (-3, -3, ⟨47689393, 30240, 15770301917989417989417989417989418, 31⟩),
     (-3, -4, ⟨-41615261, 30240, -13761660383597883597883597883597884, 31⟩),
     (-3, -5, ⟨1840141, 7560, 24340489417989417989417989417989418, 32⟩),
     (-4, -4, ⟨12160229, 40320, 30159298115079365079365079365079365, 32⟩),
     (-4, -5, ⟨-539591, 5040, -10706170634920634920634920634920635, 32⟩),
     (-5, -5, ⟨384187, 40320, 95284474206349206349206349206349206, 34⟩)]]
  -- 547-558
  omega := [(⟨1, 462, 21645021645021645021645021645021645, 37⟩, 0),
    (⟨5, 77, 64935064935064935064935064935064935, 36⟩, 1),
    (⟨25, 77, 32467532467532467532467532467532468, 35⟩, 2),
    (⟨100, 231, 4329004329004329004329004329004329, 34⟩, 3),
    (⟨25, 154, 16233766233766233766233766233766234, 35⟩, 4),
    (⟨1, 77, 12987012987012987012987012987012987, 36⟩, 5),
    (⟨1, 77, 12987012987012987012987012987012987, 36⟩, 0),
    (⟨25, 154, 16233766233766233766233766233766234, 35⟩, 1),
    (⟨100, 231, 4329004329004329004329004329004329, 34⟩, 2),
    (⟨25, 77, 32467532467532467532467532467532468, 35⟩, 3),
    (⟨5, 77, 64935064935064935064935064935064935, 36⟩, 4),
    (⟨1, 462, 21645021645021645021645021645021645, 37⟩, 5)]
  fr := [
    -- fr0, 559-562
    [(0, ⟨49, 20, 245, 2⟩),
     (1, ⟨-71, 20, -355, 2⟩),
     (2, ⟨79, 20, 395, 2⟩),
     (3, ⟨-163, 60, -27166666666666666666666666666666667, 34⟩),
     (4, ⟨31, 30, 10333333333333333333333333333333333, 34⟩),
     (5, ⟨-1, 6, -16666666666666666666666666666666667, 35⟩)],
    -- fr1, 563-567
    [(0, ⟨29, 20, 145, 2⟩),
     (1, ⟨-21, 20, -105, 2⟩),
     (2, ⟨37, 60, 61666666666666666666666666666666667, 35⟩),
     (3, ⟨-13, 60, -21666666666666666666666666666666667, 35⟩),
     (4, ⟨1, 30, 33333333333333333333333333333333333, 36⟩),
     (-1, ⟨1, 6, 16666666666666666666666666666666667, 35⟩)],
    -- fr2, 568-572
    [(0, ⟨19, 20, 95, 2⟩),
     (1, ⟨-23, 60, -38333333333333333333333333333333333, 35⟩),
     (2, ⟨7, 60, 11666666666666666666666666666666667, 35⟩),
     (3, ⟨-1, 60, -16666666666666666666666666666666667, 36⟩),
     (-1, ⟨11, 30, 36666666666666666666666666666666667, 35⟩),
     (-2, ⟨-1, 30, -33333333333333333333333333333333333, 36⟩)],
    -- fr3, 573-578
    [(0, ⟨37, 60, 61666666666666666666666666666666667, 35⟩),
     (1, ⟨-2, 15, -13333333333333333333333333333333333, 35⟩),
     (2, ⟨1, 60, 16666666666666666666666666666666667, 36⟩),
     (-1, ⟨37, 60, 61666666666666666666666666666666667, 35⟩),
     (-2, ⟨-2, 15, -13333333333333333333333333333333333, 35⟩),
     (-3, ⟨1, 60, 16666666666666666666666666666666667, 36⟩)],
    -- fr4, 579-583
    [(0, ⟨11, 30, 36666666666666666666666666666666667, 35⟩),
     (1, ⟨-1, 30, -33333333333333333333333333333333333, 36⟩),
     (-1, ⟨19, 20, 95, 2⟩),
     (-2, ⟨-23, 60, -38333333333333333333333333333333333, 35⟩),
     (-3, ⟨7, 60, 11666666666666666666666666666666667, 35⟩),
     (-4, ⟨-1, 60, -16666666666666666666666666666666667, 36⟩)],
    -- fr5, 584-587
    [(0, ⟨1, 6, 16666666666666666666666666666666667, 35⟩),
     (-1, ⟨29, 20, 145, 2⟩),
     (-2, ⟨-21, 20, -105, 2⟩),
     (-3, ⟨37, 60, 61666666666666666666666666666666667, 35⟩),
     (-4, ⟨-13, 60, -21666666666666666666666666666666667, 35⟩),
     (-5, ⟨1, 30, 33333333333333333333333333333333333, 36⟩)],
    -- fr6, 588-591
    [(0, ⟨1, 6, 16666666666666666666666666666666667, 35⟩),
     (1, ⟨29, 20, 145, 2⟩),
     (2, ⟨-21, 20, -105, 2⟩),
     (3, ⟨37, 60, 61666666666666666666666666666666667, 35⟩),
     (4, ⟨-13, 60, -21666666666666666666666666666666667, 35⟩),
     (5, ⟨1, 30, 33333333333333333333333333333333333, 36⟩)],
    -- fr7, 592-596
    [(0, ⟨11, 30, 36666666666666666666666666666666667, 35⟩),
     (1, ⟨19, 20, 95, 2⟩),
     (2, ⟨-23, 60, -38333333333333333333333333333333333, 35⟩),
     (3, ⟨7, 60, 11666666666666666666666666666666667, 35⟩),
     (4, ⟨-1, 60, -16666666666666666666666666666666667, 36⟩),
     (-1, ⟨-1, 30, -33333333333333333333333333333333333, 36⟩)],
    -- fr8, 597-602
    [(0, ⟨37, 60, 61666666666666666666666666666666667, 35⟩),
     (1, ⟨37, 60, 61666666666666666666666666666666667, 35⟩),
     (2, ⟨-2, 15, -13333333333333333333333333333333333, 35⟩),
     (3, ⟨1, 60, 16666666666666666666666666666666667, 36⟩),
     (-1, ⟨-2, 15, -13333333333333333333333333333333333, 35⟩),
     (-2, ⟨1, 60, 16666666666666666666666666666666667, 36⟩)],
    -- fr9, 603-607
    [(0, ⟨19, 20, 95, 2⟩),
     (1, ⟨11, 30, 36666666666666666666666666666666667, 35⟩),
     (2, ⟨-1, 30, -33333333333333333333333333333333333, 36⟩),
     (-1, ⟨-23, 60, -38333333333333333333333333333333333, 35⟩),
     (-2, ⟨7, 60, 11666666666666666666666666666666667, 35⟩),
     (-3, ⟨-1, 60, -16666666666666666666666666666666667, 36⟩)],
    -- fr10, 608-611
    [(0, ⟨29, 20, 145, 2⟩),
     (1, ⟨1, 6, 16666666666666666666666666666666667, 35⟩),
     (-1, ⟨-21, 20, -105, 2⟩),
     (-2, ⟨37, 60, 61666666666666666666666666666666667, 35⟩),
     (-3, ⟨-13, 60, -21666666666666666666666666666666667, 35⟩),
     (-4, ⟨1, 30, 33333333333333333333333333333333333, 36⟩)],
    -- fr11, 612-615
    [(0, ⟨49, 20, 245, 2⟩),
     (-1, ⟨-71, 20, -355, 2⟩),
     (-2, ⟨79, 20, 395, 2⟩),
     (-3, ⟨-163, 60, -27166666666666666666666666666666667, 34⟩),
     (-4, ⟨31, 30, 10333333333333333333333333333333333, 34⟩),
     (-5, ⟨-1, 6, -16666666666666666666666666666666667, 35⟩)]]

/-- `weno13`, weno.f90:628-996. -/
def weno13Table : WenoTable where
  k := 7
  sigma := [
    -- sigma0, 677-704
    [(0, 0, ⟨897207163, 7484400, 11987696582224360002137779915557693, 32⟩),
     (0, 1, ⟨-22763092357, 19958400, -1140526913830767997434664101330768, 30⟩),
     (0, 2, ⟨46808583631, 19958400, 23453074209856501523168189834856502, 31⟩),
     (0, 3, ⟨-39645439643, 14968800, -26485382691331302442413553524664636, 31⟩),
     (0, 4, ⟨8579309749, 4989600, 17194383816337983004649671316337983, 31⟩),
     (0, 5, ⟨-2416885043, 3991680, -60548066052388969055635722302388969, 32⟩),
     (0, 6, ⟨5391528799, 59875200, 90046109223852279407834963390518946, 33⟩),
     (1, 1, ⟨6182612731, 2217600, 27879747163600288600288600288600289, 31⟩),
     (1, 2, ⟨-8623431623, 739200, -11665897758387445887445887445887446, 30⟩),
     (1, 3, ⟨66440049371, 4989600, 13315706543811127144460477793811127, 30⟩),
     (1, 4, ⟨-19308505679, 2217600, -87069379865620490620490620490620491, 31⟩),
     (1, 5, ⟨3417057367, 1108800, 30817616946248196248196248196248196, 31⟩),
     (1, 6, ⟨-9181961959, 19958400, -46005501237574154240820907487574154, 32⟩),
     (2, 2, ⟨1369404749, 110880, 1235033143037518037518037518037518, 29⟩),
     (2, 3, ⟨-28364892607, 997920, -28424014557279140612473945807279141, 30⟩),
     (2, 4, ⟨8290771913, 443520, 18693118490710678210678210678210678, 30⟩),
     (2, 5, ⟨-14734178999, 2217600, -66442004865620490620490620490620491, 31⟩),
     (2, 6, ⟨4964771899, 4989600, 99502402978194644861311527978194645, 32⟩),
     (3, 3, ⟨49256859919, 2993760, 16453175912230773341884452995564107, 30⟩),
     (3, 4, ⟨-21693002767, 997920, -21738218260982844316177649510982844, 30⟩),
     (3, 5, ⟨38683385051, 4989600, 77528028401074234407567740901074234, 31⟩),
     (3, 6, ⟨-17425032203, 14968800, -11640901209849820960932072043183154, 31⟩),
     (4, 4, ⟨199730921, 27720, 72053001803751803751803751803751804, 31⟩),
     (4, 5, ⟨-3809437823, 739200, -51534602583874458874458874458874459, 31⟩),
     (4, 6, ⟨15476926351, 19958400, 775459272837502004168670835337502, 30⟩),
     (5, 5, ⟨2047941883, 2217600, 92349471636002886002886002886002886, 32⟩),
     (5, 6, ⟨-5556669277, 19958400, -27841256197891614558281224947891615, 32⟩),
     (6, 6, ⟨62911297, 2993760, 21014141748169525947303725081502859, 33⟩)],
    -- sigma1, 705-732
    [(0, 0, ⟨127942497, 246400, 51924714691558441558441558441558442, 32⟩),
     (0, 1, ⟨-14684933057, 6652800, -220733120746151996151996151996152, 29⟩),
     (0, 2, ⟨12601009501, 4989600, 25254548462802629469296135962802629, 31⟩),
     (0, 3, ⟨-405382961, 246400, -16452230560064935064935064935064935, 31⟩),
     (0, 4, ⟨1924032511, 3326400, 57841285203222703222703222703222703, 32⟩),
     (0, 5, ⟨-341910757, 3991680, -85655853425124258457591790925124259, 33⟩),
     (0, -1, ⟨-4074544787, 19958400, -20415187525052108385441718775052108, 32⟩),
     (1, 1, ⟨796358777, 332640, 23940559674122174122174122174122174, 31⟩),
     (1, 2, ⟨-616410313, 110880, -55592560696248196248196248196248196, 31⟩),
     (1, 3, ⟨4868089189, 1330560, 36586769397847522847522847522847523, 31⟩),
     (1, 4, ⟨-8619440987, 6652800, -12956110189694564694564694564694565, 31⟩),
     (1, 5, ⟨320782183, 1663200, 1928704803992303992303992303992304, 31⟩),
     (1, -1, ⟨2811067067, 6652800, 42253894104737854737854737854737855, 32⟩),
     (2, 2, ⟨9780057169, 2993760, 32668140295147239591684036128480573, 31⟩),
     (2, 3, ⟨-4330640057, 997920, -43396665634519801186467853134519801, 31⟩),
     (2, 4, ⟨857838469, 554400, 15473276857864357864357864357864358, 31⟩),
     (2, 5, ⟨-3465607493, 14968800, -23152206542942654053765164876275987, 32⟩),
     (2, -1, ⟨-7124638253, 14968800, -4759658925899203676981454759232537, 31⟩),
     (3, 3, ⟨53678683, 36960, 14523453192640692640692640692640693, 31⟩),
     (3, 4, ⟨-6932480657, 6652800, -10420395407948532948532948532948533, 31⟩),
     (3, 5, ⟨3126718481, 19958400, 15666178055355138688472021805355139, 32⟩),
     (3, -1, ⟨1531307249, 4989600, 30689980138688472021805355138688472, 32⟩),
     (4, 4, ⟨1250007643, 6652800, 18789196173039923039923039923039923, 32⟩),
     (4, 5, ⟨-377474689, 6652800, -5673922092953342953342953342953343, 32⟩),
     (4, -1, ⟨-712745603, 6652800, -10713468058561808561808561808561809, 32⟩),
     (5, 5, ⟨64361771, 14968800, 42997281679226123670568115012559457, 34⟩),
     (5, -1, ⟨945155329, 59875200, 15785422495457217679439901662123884, 33⟩),
     (-1, -1, ⟨62911297, 2993760, 21014141748169525947303725081502859, 33⟩)],
    -- sigma2, 733-760
    [(0, 0, ⟨34187317, 55440, 61665434704184704184704184704184704, 32⟩),
     (0, 1, ⟨-1476618887, 997920, -14796966560445727112393779060445727, 31⟩),
     (0, 2, ⟨1312114459, 1330560, 98613700922919672919672919672919673, 32⟩),
     (0, 3, ⟨-773749439, 2217600, -34891298656204906204906204906204906, 32⟩),
     (0, 4, ⟨256556849, 4989600, 51418319905403238736572069905403239, 33⟩),
     (0, -1, ⟨-3573798407, 6652800, -53718711023929773929773929773929774, 32⟩),
     (0, -2, ⟨1894705391, 19958400, 94932729627625460958794292127625461, 33⟩),
     (1, 1, ⟨2726585359, 2993760, 91075615914435358879803324247768692, 32⟩),
     (1, 2, ⟨-412424029, 332640, -1239850977032227032227032227032227, 30⟩),
     (1, 3, ⟨2224538011, 4989600, 44583493887285553952220618887285554, 32⟩),
     (1, 4, ⟨-995600723, 14968800, -66511725923253701031478809256587034, 33⟩),
     (1, -1, ⟨1042531337, 1663200, 62682259319384319384319384319384319, 32⟩),
     (1, -2, ⟨-1618284323, 14968800, -1081104913553524664635775746886858, 31⟩),
     (2, 2, ⟨143270957, 332640, 43070874518999518999518999518999519, 32⟩),
     (2, 3, ⟨-2096571887, 6652800, -31514127690596440596440596440596441, 32⟩),
     (2, 4, ⟨105706999, 2217600, 47667297528860028860028860028860029, 33⟩),
     (2, -1, ⟨-2725575317, 6652800, -40968844952501202501202501202501203, 32⟩),
     (2, -2, ⟨115524053, 1663200, 69458906325156325156325156325156325, 33⟩),
     (3, 3, ⟨130013563, 2217600, 58628049693362193362193362193362193, 33⟩),
     (3, 4, ⟨-359321429, 19958400, -18003518769039602372935706269039602, 33⟩),
     (3, -1, ⟨475321093, 3326400, 14289354647667147667147667147667148, 32⟩),
     (3, -2, ⟨-95508139, 3991680, -23926802499198332531665864999198333, 33⟩),
     (4, 4, ⟨2627203, 1871100, 1404095451873229651007428785206563, 33⟩),
     (4, -1, ⟨-15401629, 739200, -20835537067099567099567099567099567, 33⟩),
     (4, -2, ⟨8279479, 2395008, 34569734213831436053658275880498103, 34⟩),
     (-1, -1, ⟨806338417, 6652800, 12120286450817700817700817700817701, 32⟩),
     (-1, -2, ⟨-295455983, 6652800, -44410771855459355459355459355459355, 33⟩),
     (-2, -2, ⟨64361771, 14968800, 42997281679226123670568115012559457, 34⟩)],
    -- sigma3, 761-788
    [(0, 0, ⟨1607739169, 2993760, 53703007889744000855111966223077334, 32⟩),
     (0, 1, ⟨-790531177, 997920, -79217890913099246432579765913099246, 32⟩),
     (0, 2, ⟨1506944981, 4989600, 30201719195927529260862594195927529, 32⟩),
     (0, 3, ⟨-701563133, 14968800, -4686836172572283683394794505905617, 32⟩),
     (0, -1, ⟨-790531177, 997920, -79217890913099246432579765913099246, 32⟩),
     (0, -2, ⟨1506944981, 4989600, 30201719195927529260862594195927529, 32⟩),
     (0, -3, ⟨-701563133, 14968800, -4686836172572283683394794505905617, 32⟩),
     (1, 1, ⟨16790707, 55440, 30286268037518037518037518037518038, 32⟩),
     (1, 2, ⟨-176498513, 739200, -23876963338744588744588744588744589, 32⟩),
     (1, 3, ⟨761142961, 19958400, 38136471911576078242744909411576078, 33⟩),
     (1, -1, ⟨250523543, 443520, 56485286571067821067821067821067821, 32⟩),
     (1, -2, ⟨-464678369, 2217600, -20954111156204906204906204906204906, 32⟩),
     (1, -3, ⟨158544319, 4989600, 31774955707872374539041205707872375, 33⟩),
     (2, 2, ⟨108444169, 2217600, 4890159136002886002886002886002886, 32⟩),
     (2, 3, ⟨-323333323, 19958400, -16200362904842071508738175404842072, 33⟩),
     (2, -1, ⟨-464678369, 2217600, -20954111156204906204906204906204906, 32⟩),
     (2, -2, ⟨84263749, 1108800, 75995444624819624819624819624819625, 33⟩),
     (2, -3, ⟨-225623953, 19958400, -11304711449815616482283148949815616, 33⟩),
     (3, 3, ⟨2627203, 1871100, 1404095451873229651007428785206563, 33⟩),
     (3, -1, ⟨158544319, 4989600, 31774955707872374539041205707872375, 33⟩),
     (3, -2, ⟨-225623953, 19958400, -11304711449815616482283148949815616, 33⟩),
     (3, -3, ⟨99022657, 59875200, 16538175571856127411682967238522794, 34⟩),
     (-1, -1, ⟨16790707, 55440, 30286268037518037518037518037518038, 32⟩),
     (-1, -2, ⟨-176498513, 739200, -23876963338744588744588744588744589, 32⟩),
     (-1, -3, ⟨761142961, 19958400, 38136471911576078242744909411576078, 33⟩),
     (-2, -2, ⟨108444169, 2217600, 4890159136002886002886002886002886, 32⟩),
     (-2, -3, ⟨-323333323, 19958400, -16200362904842071508738175404842072, 33⟩),
     (-3, -3, ⟨2627203, 1871100, 1404095451873229651007428785206563, 33⟩)],
    -- sigma4, 789-816
    [(0, 0, ⟨34187317, 55440, 61665434704184704184704184704184704, 32⟩),
     (0, 1, ⟨-3573798407, 6652800, -53718711023929773929773929773929774, 32⟩),
     (0, 2, ⟨1894705391, 19958400, 94932729627625460958794292127625461, 33⟩),
     (0, -1, ⟨-1476618887, 997920, -14796966560445727112393779060445727, 31⟩),
     (0, -2, ⟨1312114459, 1330560, 98613700922919672919672919672919673, 32⟩),
     (0, -3, ⟨-773749439, 2217600, -34891298656204906204906204906204906, 32⟩),
     (0, -4, ⟨256556849, 4989600, 51418319905403238736572069905403239, 33⟩),
     (1, 1, ⟨806338417, 6652800, 12120286450817700817700817700817701, 32⟩),
     (1, 2, ⟨-295455983, 6652800, -44410771855459355459355459355459355, 33⟩),
     (1, -1, ⟨1042531337, 1663200, 62682259319384319384319384319384319, 32⟩),
     (1, -2, ⟨-2725575317, 6652800, -40968844952501202501202501202501203, 32⟩),
     (1, -3, ⟨475321093, 3326400, 14289354647667147667147667147667148, 32⟩),
     (1, -4, ⟨-15401629, 739200, -20835537067099567099567099567099567, 33⟩),
     (2, 2, ⟨64361771, 14968800, 42997281679226123670568115012559457, 34⟩),
     (2, -1, ⟨-1618284323, 14968800, -1081104913553524664635775746886858, 31⟩),
     (2, -2, ⟨115524053, 1663200, 69458906325156325156325156325156325, 33⟩),
     (2, -3, ⟨-95508139, 3991680, -23926802499198332531665864999198333, 33⟩),
     (2, -4, ⟨8279479, 2395008, 34569734213831436053658275880498103, 34⟩),
     (-1, -1, ⟨2726585359, 2993760, 91075615914435358879803324247768692, 32⟩),
     (-1, -2, ⟨-412424029, 332640, -1239850977032227032227032227032227, 30⟩),
     (-1, -3, ⟨2224538011, 4989600, 44583493887285553952220618887285554, 32⟩),
     (-1, -4, ⟨-995600723, 14968800, -66511725923253701031478809256587034, 33⟩),
     (-2, -2, ⟨143270957, 332640, 43070874518999518999518999518999519, 32⟩),
     (-2, -3, ⟨-2096571887, 6652800, -31514127690596440596440596440596441, 32⟩),
     (-2, -4, ⟨105706999, 2217600, 47667297528860028860028860028860029, 33⟩),
     (-3, -3, ⟨130013563, 2217600, 58628049693362193362193362193362193, 33⟩),
     (-3, -4, ⟨-359321429, 19958400, -18003518769039602372935706269039602, 33⟩),
     (-4, -4, ⟨2627203, 1871100, 1404095451873229651007428785206563, 33⟩)],
    -- sigma5, 817-844
    [(0, 0, ⟨127942497, 246400, 51924714691558441558441558441558442, 32⟩),
     (0, 1, ⟨-4074544787, 19958400, -20415187525052108385441718775052108, 32⟩),
     (0, -1, ⟨-14684933057, 6652800, -220733120746151996151996151996152, 29⟩),
     (0, -2, ⟨12601009501, 4989600, 25254548462802629469296135962802629, 31⟩),
     (0, -3, ⟨-405382961, 246400, -16452230560064935064935064935064935, 31⟩),
     (0, -4, ⟨1924032511, 3326400, 57841285203222703222703222703222703, 32⟩),
     (0, -5, ⟨-341910757, 3991680, -85655853425124258457591790925124259, 33⟩),
     (1, 1, ⟨62911297, 2993760, 21014141748169525947303725081502859, 33⟩),
     (1, -1, ⟨2811067067, 6652800, 42253894104737854737854737854737855, 32⟩),
     (1, -2, ⟨-7124638253, 14968800, -4759658925899203676981454759232537, 31⟩),
     (1, -3, ⟨1531307249, 4989600, 30689980138688472021805355138688472, 32⟩),
     (1, -4, ⟨-712745603, 6652800, -10713468058561808561808561808561809, 32⟩),
     (1, -5, ⟨945155329, 59875200, 15785422495457217679439901662123884, 33⟩),
     (-1, -1, ⟨796358777, 332640, 23940559674122174122174122174122174, 31⟩),
     (-1, -2, ⟨-616410313, 110880, -55592560696248196248196248196248196, 31⟩),
     (-1, -3, ⟨4868089189, 1330560, 36586769397847522847522847522847523, 31⟩),
     (-1, -4, ⟨-8619440987, 6652800, -12956110189694564694564694564694565, 31⟩),
     (-1, -5, ⟨320782183, 1663200, 1928704803992303992303992303992304, 31⟩),
     (-2, -2, ⟨9780057169, 2993760, 32668140295147239591684036128480573, 31⟩),
     (-2, -3, ⟨-4330640057, 997920, -43396665634519801186467853134519801, 31⟩),
     (-2, -4, ⟨857838469, 554400, 15473276857864357864357864357864358, 31⟩),
     (-2, -5, ⟨-3465607493, 14968800, -23152206542942654053765164876275987, 32⟩),
     (-3, -3, ⟨53678683, 36960, 14523453192640692640692640692640693, 31⟩),
     (-3, -4, ⟨-6932480657, 6652800, -10420395407948532948532948532948533, 31⟩),
     (-3, -5, ⟨3126718481, 19958400, 15666178055355138688472021805355139, 32⟩),
     (-4, -4, ⟨1250007643, 6652800, 18789196173039923039923039923039923, 32⟩),
     (-4, -5, ⟨-377474689, 6652800, -5673922092953342953342953342953343, 32⟩),
     (-5, -5, ⟨64361771, 14968800, 42997281679226123670568115012559457, 34⟩)],
    -- sigma6, 845-872
    [(0, 0, ⟨897207163, 7484400, 11987696582224360002137779915557693, 32⟩),
     (0, -1, ⟨-22763092357, 19958400, -1140526913830767997434664101330768, 30⟩),
     (0, -2, ⟨46808583631, 19958400, 23453074209856501523168189834856502, 31⟩),
     (0, -3, ⟨-39645439643, 14968800, -26485382691331302442413553524664636, 31⟩),
     (0, -4, ⟨8579309749, 4989600, 17194383816337983004649671316337983, 31⟩),
     (0, -5, ⟨-2416885043, 3991680, -60548066052388969055635722302388969, 32⟩),
     (0, -6, ⟨5391528799, 59875200, 90046109223852279407834963390518946, 33⟩),
     (-1, -1, ⟨6182612731, 2217600, 27879747163600288600288600288600289, 31⟩),
     (-1, -2, ⟨-8623431623, 739200, -11665897758387445887445887445887446, 30⟩),
     (-1, -3, ⟨66440049371, 4989600, 13315706543811127144460477793811127, 30⟩),
     (-1, -4, ⟨-19308505679, 2217600, -87069379865620490620490620490620491, 31⟩),
     (-1, -5, ⟨3417057367, 1108800, 30817616946248196248196248196248196, 31⟩),
     (-1, -6, ⟨-9181961959, 19958400, -46005501237574154240820907487574154, 32⟩),
     (-2, -2, ⟨1369404749, 110880, 1235033143037518037518037518037518, 29⟩),
     (-2, -3, ⟨-28364892607, 997920, -28424014557279140612473945807279141, 30⟩),
     (-2, -4, ⟨8290771913, 443520, 18693118490710678210678210678210678, 30⟩),
     (-2, -5, ⟨-14734178999, 2217600, -66442004865620490620490620490620491, 31⟩),
     (-2, -6, ⟨4964771899, 4989600, 99502402978194644861311527978194645, 32⟩),
     (-3, -3, ⟨49256859919, 2993760, 16453175912230773341884452995564107, 30⟩),
     (-3, -4, ⟨-21693002767, 997920, -21738218260982844316177649510982844, 30⟩),
     (-3, -5, ⟨38683385051, 4989600, 77528028401074234407567740901074234, 31⟩),
     (-3, -6, ⟨-17425032203, 14968800, -11640901209849820960932072043183154, 31⟩),
     (-4, -4, ⟨199730921, 27720, 72053001803751803751803751803751804, 31⟩),
     (-4, -5, ⟨-3809437823, 739200, -51534602583874458874458874458874459, 31⟩),
     (-4, -6, ⟨15476926351, 19958400, 775459272837502004168670835337502, 30⟩),
     (-5, -5, ⟨2047941883, 2217600, 92349471636002886002886002886002886, 32⟩),
     (-5, -6, ⟨-5556669277, 19958400, -27841256197891614558281224947891615, 32⟩),
     (-6, -6, ⟨62911297, 2993760, 21014141748169525947303725081502859, 33⟩)]]
  -- 873-886
  omega := [(⟨1, 1716, 58275058275058275058275058275058275, 38⟩, 0),
    (⟨7, 286, 24475524475524475524475524475524476, 36⟩, 1),
    (⟨105, 572, 18356643356643356643356643356643357, 35⟩, 2),
    (⟨175, 429, 40792540792540792540792540792540793, 35⟩, 3),
    (⟨175, 572, 30594405594405594405594405594405594, 35⟩, 4),
    (⟨21, 286, 73426573426573426573426573426573427, 36⟩, 5),
    (⟨7, 1716, 40792540792540792540792540792540793, 37⟩, 6),
    (⟨7, 1716, 40792540792540792540792540792540793, 37⟩, 0),
    (⟨21, 286, 73426573426573426573426573426573427, 36⟩, 1),
    (⟨175, 572, 30594405594405594405594405594405594, 35⟩, 2),
    (⟨175, 429, 40792540792540792540792540792540793, 35⟩, 3),
    (⟨105, 572, 18356643356643356643356643356643357, 35⟩, 4),
    (⟨7, 286, 24475524475524475524475524475524476, 36⟩, 5),
    (⟨1, 1716, 58275058275058275058275058275058275, 38⟩, 6)]
  fr := [
    -- fr0, 887-893
    [(0, ⟨363, 140, 25928571428571428571428571428571429, 34⟩),
     (1, ⟨-617, 140, -44071428571428571428571428571428571, 34⟩),
     (2, ⟨853, 140, 60928571428571428571428571428571429, 34⟩),
     (3, ⟨-2341, 420, -55738095238095238095238095238095238, 34⟩),
     (4, ⟨667, 210, 31761904761904761904761904761904762, 34⟩),
     (5, ⟨-43, 42, -10238095238095238095238095238095238, 34⟩),
     (6, ⟨1, 7, 14285714285714285714285714285714286, 35⟩)],
    -- fr1, 894-900
    [(0, ⟨223, 140, 15928571428571428571428571428571429, 34⟩),
     (1, ⟨-197, 140, -14071428571428571428571428571428571, 34⟩),
     (2, ⟨153, 140, 10928571428571428571428571428571429, 34⟩),
     (3, ⟨-241, 420, -57380952380952380952380952380952381, 35⟩),
     (4, ⟨37, 210, 17619047619047619047619047619047619, 35⟩),
     (5, ⟨-1, 42, -2380952380952380952380952380952381, 35⟩),
     (-1, ⟨1, 7, 14285714285714285714285714285714286, 35⟩)],
    -- fr2, 901-907
    [(0, ⟨153, 140, 10928571428571428571428571428571429, 34⟩),
     (1, ⟨-241, 420, -57380952380952380952380952380952381, 35⟩),
     (2, ⟨109, 420, 25952380952380952380952380952380952, 35⟩),
     (3, ⟨-31, 420, -7380952380952380952380952380952381, 35⟩),
     (4, ⟨1, 105, 95238095238095238095238095238095238, 37⟩),
     (-1, ⟨13, 42, 30952380952380952380952380952380952, 35⟩),
     (-2, ⟨-1, 42, -2380952380952380952380952380952381, 35⟩)],
    -- fr3, 908-914
    [(0, ⟨319, 420, 75952380952380952380952380952380952, 35⟩),
     (1, ⟨-101, 420, -24047619047619047619047619047619048, 35⟩),
     (2, ⟨5, 84, 59523809523809523809523809523809524, 36⟩),
     (3, ⟨-1, 140, -71428571428571428571428571428571429, 37⟩),
     (-1, ⟨107, 210, 50952380952380952380952380952380952, 35⟩),
     (-2, ⟨-19, 210, -90476190476190476190476190476190476, 36⟩),
     (-3, ⟨1, 105, 95238095238095238095238095238095238, 37⟩)],
    -- fr4, 915-921
    [(0, ⟨107, 210, 50952380952380952380952380952380952, 35⟩),
     (1, ⟨-19, 210, -90476190476190476190476190476190476, 36⟩),
     (2, ⟨1, 105, 95238095238095238095238095238095238, 37⟩),
     (-1, ⟨319, 420, 75952380952380952380952380952380952, 35⟩),
     (-2, ⟨-101, 420, -24047619047619047619047619047619048, 35⟩),
     (-3, ⟨5, 84, 59523809523809523809523809523809524, 36⟩),
     (-4, ⟨-1, 140, -71428571428571428571428571428571429, 37⟩)],
    -- fr5, 922-928
    [(0, ⟨13, 42, 30952380952380952380952380952380952, 35⟩),
     (1, ⟨-1, 42, -2380952380952380952380952380952381, 35⟩),
     (-1, ⟨153, 140, 10928571428571428571428571428571429, 34⟩),
     (-2, ⟨-241, 420, -57380952380952380952380952380952381, 35⟩),
     (-3, ⟨109, 420, 25952380952380952380952380952380952, 35⟩),
     (-4, ⟨-31, 420, -7380952380952380952380952380952381, 35⟩),
     (-5, ⟨1, 105, 95238095238095238095238095238095238, 37⟩)],
    -- fr6, 929-935
    [(0, ⟨1, 7, 14285714285714285714285714285714286, 35⟩),
     (-1, ⟨223, 140, 15928571428571428571428571428571429, 34⟩),
     (-2, ⟨-197, 140, -14071428571428571428571428571428571, 34⟩),
     (-3, ⟨153, 140, 10928571428571428571428571428571429, 34⟩),
     (-4, ⟨-241, 420, -57380952380952380952380952380952381, 35⟩),
     (-5, ⟨37, 210, 17619047619047619047619047619047619, 35⟩),
     (-6, ⟨-1, 42, -2380952380952380952380952380952381, 35⟩)],
    -- fr7, 936-942
    [(0, ⟨1, 7, 14285714285714285714285714285714286, 35⟩),
     (1, ⟨223, 140, 15928571428571428571428571428571429, 34⟩),
     (2, ⟨-197, 140, -14071428571428571428571428571428571, 34⟩),
     (3, ⟨153, 140, 10928571428571428571428571428571429, 34⟩),
     (4, ⟨-241, 420, -57380952380952380952380952380952381, 35⟩),
     (5, ⟨37, 210, 17619047619047619047619047619047619, 35⟩),
     (6, ⟨-1, 42, -2380952380952380952380952380952381, 35⟩)],
    -- fr8, 943-949
    [(0, ⟨13, 42, 30952380952380952380952380952380952, 35⟩),
     (1, ⟨153, 140, 10928571428571428571428571428571429, 34⟩),
     (2, ⟨-241, 420, -57380952380952380952380952380952381, 35⟩),
     (3, ⟨109, 420, 25952380952380952380952380952380952, 35⟩),
     (4, ⟨-31, 420, -7380952380952380952380952380952381, 35⟩),
     (5, ⟨1, 105, 95238095238095238095238095238095238, 37⟩),
     (-1, ⟨-1, 42, -2380952380952380952380952380952381, 35⟩)],
    -- fr9, 950-956
    [(0, ⟨107, 210, 50952380952380952380952380952380952, 35⟩),
     (1, ⟨319, 420, 75952380952380952380952380952380952, 35⟩),
     (2, ⟨-101, 420, -24047619047619047619047619047619048, 35⟩),
     (3, ⟨5, 84, 59523809523809523809523809523809524, 36⟩),
     (4, ⟨-1, 140, -71428571428571428571428571428571429, 37⟩),
     (-1, ⟨-19, 210, -90476190476190476190476190476190476, 36⟩),
     (-2, ⟨1, 105, 95238095238095238095238095238095238, 37⟩)],
    -- fr10, 957-963
    [(0, ⟨319, 420, 75952380952380952380952380952380952, 35⟩),
     (1, ⟨107, 210, 50952380952380952380952380952380952, 35⟩),
     (2, ⟨-19, 210, -90476190476190476190476190476190476, 36⟩),
     (3, ⟨1, 105, 95238095238095238095238095238095238, 37⟩),
     (-1, ⟨-101, 420, -24047619047619047619047619047619048, 35⟩),
     (-2, ⟨5, 84, 59523809523809523809523809523809524, 36⟩),
     (-3, ⟨-1, 140, -71428571428571428571428571428571429, 37⟩)],
    -- fr11, 964-970
    [(0, ⟨153, 140, 10928571428571428571428571428571429, 34⟩),
     (1, ⟨13, 42, 30952380952380952380952380952380952, 35⟩),
     (2, ⟨-1, 42, -2380952380952380952380952380952381, 35⟩),
     (-1, ⟨-241, 420, -57380952380952380952380952380952381, 35⟩),
     (-2, ⟨109, 420, 25952380952380952380952380952380952, 35⟩),
     (-3, ⟨-31, 420, -7380952380952380952380952380952381, 35⟩),
     (-4, ⟨1, 105, 95238095238095238095238095238095238, 37⟩)],
    -- fr12, 971-977
    [(0, ⟨223, 140, 15928571428571428571428571428571429, 34⟩),
     (1, ⟨1, 7, 14285714285714285714285714285714286, 35⟩),
     (-1, ⟨-197, 140, -14071428571428571428571428571428571, 34⟩),
     (-2, ⟨153, 140, 10928571428571428571428571428571429, 34⟩),
     (-3, ⟨-241, 420, -57380952380952380952380952380952381, 35⟩),
     (-4, ⟨37, 210, 17619047619047619047619047619047619, 35⟩),
     (-5, ⟨-1, 42, -2380952380952380952380952380952381, 35⟩)],
    -- fr13, 978-984
    [(0, ⟨363, 140, 25928571428571428571428571428571429, 34⟩),
     (-1, ⟨-617, 140, -44071428571428571428571428571428571, 34⟩),
     (-2, ⟨853, 140, 60928571428571428571428571428571429, 34⟩),
     (-3, ⟨-2341, 420, -55738095238095238095238095238095238, 34⟩),
     (-4, ⟨667, 210, 31761904761904761904761904761904762, 34⟩),
     (-5, ⟨-43, 42, -10238095238095238095238095238095238, 34⟩),
     (-6, ⟨1, 7, 14285714285714285714285714285714286, 35⟩)]]

/-- `weno15`, weno.f90:998-1493. -/
def weno15Table : WenoTable where
  k := 8
  sigma := [
    -- sigma0, 1052-1087
    [(0, 0, ⟨5870785406797, 20756736000, 28283760061297691506024839358172691, 32⟩),
     (0, 1, ⟨-3130718954431, 972972000, -3217686587518448629559740670851782, 30⟩),
     (0, 2, ⟨36019630238453, 4447872000, 80981714937959095945207056318167429, 31⟩),
     (0, 3, ⟨-9030771744409, 778377600, -11602044745903530625752847975070197, 30⟩),
     (0, 4, ⟨7028987165449, 691891200, 10159093171656179468679468679468679, 30⟩),
     (0, 5, ⟨-5269260407953, 972972000, -54156341682525293636404747515858627, 31⟩),
     (0, 6, ⟨50528822994577, 31135104000, 16228891669858241038796594352149908, 31⟩),
     (0, 7, ⟨-819100494587, 3891888000, -21046353198935837824726713615602504, 32⟩),
     (1, 1, ⟨581791881407369, 62270208000, 93430213274278608479997368886257775, 31⟩),
     (1, 2, ⟨-185432400549349, 3891888000, -47645872787024960636071747182858294, 30⟩),
     (1, 3, ⟨428668917728281, 6227020800, 68840129412813427570372014816459261, 30⟩),
     (1, 4, ⟨-393303816739, 6486480, -60634399048328214994881661548328215, 30⟩),
     (1, 5, ⟨1010731494899387, 31135104000, 32462762767690995989607100718211829, 30⟩),
     (1, 6, ⟨-12661520644021, 1297296000, -97599319230314438647771981105314439, 31⟩),
     (1, 7, ⟨39509061792127, 31135104000, 12689555105429228693117582006470895, 31⟩),
     (2, 2, ⟨1272280750118197, 20756736000, 61294837016677236729320062653395987, 30⟩),
     (2, 3, ⟨-6306477584539, 35380800, -17824575997543865599421154976710532, 29⟩),
     (2, 4, ⟨982150494698309, 6227020800, 15772397848716179011317900206789096, 29⟩),
     (2, 5, ⟨-109928049802589, 1297296000, -84736289792452146618813285479952147, 30⟩),
     (2, 6, ⟨795325997722517, 31135104000, 2554435012397957623652068096512541, 29⟩),
     (2, 7, ⟨-6476591199161, 1945944000, -33282515833759861537639315417093195, 31⟩),
     (3, 3, ⟨5896382977423, 45287424, 13019912498054647577217021661466106, 29⟩),
     (3, 4, ⟨-35999233471051, 155675520, -23124530736143357671135448913226691, 29⟩),
     (3, 5, ⟨775760249154827, 6227020800, 12457967848041024690330245885801441, 29⟩),
     (3, 6, ⟨-4882688924777, 129729600, -37637431432587474254140920807587474, 30⟩),
     (3, 7, ⟨10196716797013, 2075673600, 49124856610466115674449007782341116, 31⟩),
     (4, 4, ⟨23315424178373, 226437120, 10296644021251021034007145118256229, 29⟩),
     (4, 5, ⟨-983492927359, 8845200, -11118945047698186587075475964364853, 29⟩),
     (4, 6, ⟨41910140004779, 1245404160, 33651838777203859669137446915224693, 30⟩),
     (4, 7, ⟨-3423798156193, 778377600, -4398633974298592354147909703465259, 30⟩),
     (5, 5, ⟨624177436330267, 20756736000, 3007107843594807006265339598672932, 29⟩),
     (5, 6, ⟨-70944310593109, 3891888000, -18228764700605207549651994096438541, 30⟩),
     (5, 7, ⟨10610581100123, 4447872000, 23855410182943663846441624219401997, 31⟩),
     (6, 6, ⟨172229708657639, 62270208000, 27658444413360398603454159009714565, 31⟩),
     (6, 7, ⟨-1410106709147, 1945944000, -7246388946172140616585061029505474, 31⟩),
     (7, 7, ⟨986005096387, 20756736000, 47502897198625063208396541729875063, 33⟩)],
    -- sigma1, 1088-1123
    [(0, 0, ⟨102080471419559, 62270208000, 16393147654101139344194899750455306, 31⟩),
     (0, 1, ⟨-32903428273669, 3891888000, -84543615524570594015038459482903927, 31⟩),
     (0, 2, ⟨76273513229143, 6227020800, 12248796925352007817285595063372841, 30⟩),
     (0, 3, ⟨-1397571412901, 129729600, -10772957080735622402289068955735622, 30⟩),
     (0, 4, ⟨178922840432597, 31135104000, 57466594758314280883725328169772614, 31⟩),
     (0, 5, ⟨-2230862726341, 1297296000, -1719625071179592012925346258679592, 30⟩),
     (0, 6, ⟨6925711076497, 31135104000, 22244059555725267530823086378641934, 32⟩),
     (0, -1, ⟨-1069457397287, 1945944000, -54958282318864263308707753152197597, 32⟩),
     (1, 1, ⟨229456135916827, 20756736000, 1105453843594807006265339598672932, 29⟩),
     (1, 2, ⟨-11450077957, 353808, -32362405476981865870754759643648533, 30⟩),
     (1, 3, ⟨178559835040523, 6227020800, 28675002184113950607006162561718117, 30⟩),
     (1, 4, ⟨-19952704102349, 1297296000, -15380224792452146618813285479952147, 30⟩),
     (1, 5, ⟨143887855797947, 31135104000, 46214027676909959896071007182118293, 31⟩),
     (1, 6, ⟨-583488131053, 972972000, -59969673439009550120661231772342883, 32⟩),
     (1, -1, ⟨43315366304381, 31135104000, 1391206732580080670358448136225914, 30⟩),
     (2, 2, ⟨5407733702789, 226437120, 23881833962510210340071451182562294, 30⟩),
     (2, 3, ⟨-6630479776771, 155675520, -42591666157729873007650785428563206, 30⟩),
     (2, 4, ⟨142950967195973, 6227020800, 22956558487161790113179002067890957, 30⟩),
     (2, 5, ⟨-224563041869, 32432400, -6924034048328214994881661548328215, 30⟩),
     (2, 6, ⟨41566759079, 46126080, 90115524837575618825618825618825619, 32⟩),
     (2, -1, ⟨-1550584925161, 778377600, -19920729028700209255764811320366876, 31⟩),
     (3, 3, ⟨4322531771339, 226437120, 19089324980546475772170216614661059, 30⟩),
     (3, 4, ⟨-29244985495, 1415232, -20664446179142359697915253470809026, 30⟩),
     (3, 5, ⟨38941083744793, 6227020800, 62535657091097238666683111127555572, 31⟩),
     (3, 6, ⟨-90744192823, 111196800, -81606838346966819189041411263633486, 32⟩),
     (3, -1, ⟨721470910481, 415134720, 17379199467608972817306150639483973, 31⟩),
     (4, 4, ⟨116487285372277, 20756736000, 56120232666772367293200626533959867, 31⟩),
     (4, 5, ⟨-13257668940469, 3891888000, -3406487787024960636071747182858294, 30⟩),
     (4, 6, ⟨13873328286131, 31135104000, 44558477421919001780112891224002335, 32⟩),
     (4, -1, ⟨-1793558121581, 1945944000, -92169051194741472519250297028074806, 32⟩),
     (5, 5, ⟨32268504444809, 62270208000, 51820132742786084799973688862577751, 32⟩),
     (5, 6, ⟨-132173819131, 972972000, -1358454499523110634221745332856444, 31⟩),
     (5, -1, ⟨1221480056521, 4447872000, 27462122482863715502604391493280382, 32⟩),
     (6, 6, ⟨26446172491, 2965248000, 89187051103314124147457480790814124, 34⟩),
     (6, -1, ⟨-137801870867, 3891888000, -35407460560786949675838564727453616, 33⟩),
     (-1, -1, ⟨986005096387, 20756736000, 47502897198625063208396541729875063, 33⟩)],
    -- sigma2, 1124-1159
    [(0, 0, ⟨49883478342517, 20756736000, 24032428963068663589496922830256164, 31⟩),
     (0, 1, ⟨-253865691211, 35380800, -71752388643275448831004386559942115, 31⟩),
     (0, 2, ⟨39896100785477, 6227020800, 64069323143222839403394958950514506, 31⟩),
     (0, 3, ⟨-4456767285989, 1297296000, -34354282183780725447392114058780725, 31⟩),
     (0, 4, ⟨31959522170837, 31135104000, 10264787350906873476317920762365207, 31⟩),
     (0, 5, ⟨-256879392281, 1945944000, -13200759748533359644470755581866693, 32⟩),
     (0, -1, ⟨-6905100758509, 3891888000, -17742290524570594015038459482903927, 31⟩),
     (0, -2, ⟨8624638348211, 31135104000, 27700689062130641991753102864213975, 32⟩),
     (1, 1, ⟨1231949387723, 226437120, 54405805361020313277257721702166147, 31⟩),
     (1, 2, ⟨-1532094364651, 155675520, -98415882256311075755520199964644409, 31⟩),
     (1, 3, ⟨33191727291659, 6227020800, 53302740359658024588580144135699691, 31⟩),
     (1, 4, ⟨-41643930661, 25945920, -16050280992541409208075874742541409, 31⟩),
     (1, 5, ⟨431000077397, 2075673600, 20764347409775795192461859128525795, 32⟩),
     (1, -1, ⟨3240510296069, 1245404160, 26019748449121930024707802485580263, 31⟩),
     (1, -2, ⟨-310726966393, 778377600, -39919823796702268924491146713368936, 32⟩),
     (2, 2, ⟨203912134273, 45287424, 45026216168311979943924388368832813, 31⟩),
     (2, 3, ⟨-5445142127, 1105650, -4924833470809026364581920137475693, 30⟩),
     (2, 4, ⟨9306913817431, 6227020800, 14946013697964522617300395078172856, 31⟩),
     (2, 5, ⟨-151441370209, 778377600, -19456028823157295379517601739823962, 32⟩),
     (2, -1, ⟨-37187936869, 16216200, -22932584001800668467335134001800668, 31⟩),
     (2, -2, ⟨721220745563, 2075673600, 34746346707064154980821647488314155, 32⟩),
     (3, 3, ⟨28199161918747, 20756736000, 13585547322443663589496922830256164, 31⟩),
     (3, 4, ⟨-3233549114749, 3891888000, -83084331171631866076310520754965199, 32⟩),
     (3, 5, ⟨3388533713021, 31135104000, 10883322287990430351541462652573764, 32⟩),
     (3, -1, ⟨37913679009467, 31135104000, 12177148664564280883725328169772614, 31⟩),
     (3, -2, ⟨-25412164549, 138996000, -18282658888744999856110967222078333, 32⟩),
     (4, 4, ⟨7965255985319, 62270208000, 12791439503974356404911960467516023, 32⟩),
     (4, 5, ⟨-65611168187, 1945944000, -33716884035203479647924092368536813, 33⟩),
     (4, -1, ⟨-468561665821, 1297296000, -36118331192033275366608699942033275, 32⟩),
     (4, -2, ⟨1677021138577, 31135104000, 53862711959369077424632980188535744, 33⟩),
     (5, 5, ⟨46388292547, 20756736000, 22348548705827351660684994018327352, 34⟩),
     (5, -1, ⟨1438198790527, 31135104000, 46192194846273839329394884950440506, 33⟩),
     (5, -2, ⟨-26674345787, 3891888000, -68538318129915352137574359796582019, 34⟩),
     (-1, -1, ⟨20863031646089, 62270208000, 33504033977353986034541590097145653, 32⟩),
     (-1, -2, ⟨-104391937861, 972972000, -10729182120451564896009340453784898, 32⟩),
     (-2, -2, ⟨26446172491, 2965248000, 89187051103314124147457480790814124, 34⟩)],
    -- sigma3, 1160-1195
    [(0, 0, ⟨457249528517, 226437120, 20193223112756424388368832813277258, 31⟩),
     (0, 1, ⟨-595915721251, 155675520, -38279346762483915261693039470817249, 31⟩),
     (0, 2, ⟨532071643661, 249080832, 21361404624704320884876440431995988, 31⟩),
     (0, 3, ⟨-10590149653, 16216200, -65305988166154832821499488166154833, 32⟩),
     (0, 4, ⟨25116366157, 296524800, 84702413278754424587757921091254425, 33⟩),
     (0, -1, ⟨-5527715497, 2211300, -24997582856238411793967349522905078, 31⟩),
     (0, -2, ⟨5227966881367, 6227020800, 83956149325324238518682963127407572, 32⟩),
     (0, -3, ⟨-18415814357, 155675520, -11829614801993274215496437718659941, 32⟩),
     (1, 1, ⟨420341161931, 226437120, 18563262151143770067381178492289603, 31⟩),
     (1, 2, ⟨-74851467823, 35380800, -21155956853151992040880929769818659, 31⟩),
     (1, 3, ⟨4100880843289, 6227020800, 65856225231960040987818765596543374, 32⟩),
     (1, 4, ⟨-67513265377, 778377600, -86735879060497116052671608227163783, 33⟩),
     (1, -1, ⟨14416393946891, 6227020800, 23151350236201234465123354012242901, 31⟩),
     (1, -2, ⟨-98765696693, 129729600, -761319673328214994881661548328215, 30⟩),
     (1, -3, ⟨72812006087, 691891200, 10523620778382497132497132497132497, 32⟩),
     (2, 2, ⟨12780967457077, 20756736000, 61575035001057006265339598672932006, 32⟩),
     (2, 3, ⟨-1521688484269, 3891888000, -39098979319780014224458668903113348, 32⟩),
     (2, 4, ⟨1631589107891, 31135104000, 52403522014604479882257660035437813, 33⟩),
     (2, -1, ⟨-1644079167749, 1297296000, -12673122924521466188132854799521466, 31⟩),
     (2, -2, ⟨12752830987157, 31135104000, 40959654373266265627376738487849599, 32⟩),
     (2, -3, ⟨-108473646221, 1945944000, -55743457273693384804495915607026718, 33⟩),
     (3, 3, ⟨3944861897609, 62270208000, 63350710143910230715786271341826897, 33⟩),
     (3, 4, ⟨-2407377043, 138996000, -1731975771245215689660134104578549, 32⟩),
     (3, -1, ⟨11870432980667, 31135104000, 38125560719716882911327355771800216, 32⟩),
     (3, -2, ⟨-157580595421, 1297296000, -12146849710551793885127218460551794, 32⟩),
     (3, -3, ⟨508082860927, 31135104000, 16318649872728865784421339976895532, 33⟩),
     (4, 4, ⟨25116366157, 20756736000, 12100344754107774941108274441607775, 34⟩),
     (4, -1, ⟨-47469340603, 972972000, -48787982185509963287741065518843297, 33⟩),
     (4, -2, ⟨478185649297, 31135104000, 15358408608399059787948676837565726, 33⟩),
     (4, -3, ⟨-7942541267, 3891888000, -20407938941202830091718980607869497, 34⟩),
     (-1, -1, ⟨16476387815707, 20756736000, 79378510261473672932006265339598673, 32⟩),
     (-1, -2, ⟨-2129103852829, 3891888000, -54706195369162730273841384952496064, 32⟩),
     (-1, -3, ⟨2458417783421, 31135104000, 78959677906359329970441081552192663, 33⟩),
     (-2, -2, ⟨6047605530599, 62270208000, 97118762323694181333070221959110848, 33⟩),
     (-2, -3, ⟨-56245265927, 1945944000, -28903846116332227443338554449665561, 33⟩),
     (-3, -3, ⟨46388292547, 20756736000, 22348548705827351660684994018327352, 34⟩)],
    -- sigma4, 1196-1231
    [(0, 0, ⟨457249528517, 226437120, 20193223112756424388368832813277258, 31⟩),
     (0, 1, ⟨-5527715497, 2211300, -24997582856238411793967349522905078, 31⟩),
     (0, 2, ⟨5227966881367, 6227020800, 83956149325324238518682963127407572, 32⟩),
     (0, 3, ⟨-18415814357, 155675520, -11829614801993274215496437718659941, 32⟩),
     (0, -1, ⟨-595915721251, 155675520, -38279346762483915261693039470817249, 31⟩),
     (0, -2, ⟨532071643661, 249080832, 21361404624704320884876440431995988, 31⟩),
     (0, -3, ⟨-10590149653, 16216200, -65305988166154832821499488166154833, 32⟩),
     (0, -4, ⟨25116366157, 296524800, 84702413278754424587757921091254425, 33⟩),
     (1, 1, ⟨16476387815707, 20756736000, 79378510261473672932006265339598673, 32⟩),
     (1, 2, ⟨-2129103852829, 3891888000, -54706195369162730273841384952496064, 32⟩),
     (1, 3, ⟨2458417783421, 31135104000, 78959677906359329970441081552192663, 33⟩),
     (1, -1, ⟨14416393946891, 6227020800, 23151350236201234465123354012242901, 31⟩),
     (1, -2, ⟨-1644079167749, 1297296000, -12673122924521466188132854799521466, 31⟩),
     (1, -3, ⟨11870432980667, 31135104000, 38125560719716882911327355771800216, 32⟩),
     (1, -4, ⟨-47469340603, 972972000, -48787982185509963287741065518843297, 33⟩),
     (2, 2, ⟨6047605530599, 62270208000, 97118762323694181333070221959110848, 33⟩),
     (2, 3, ⟨-56245265927, 1945944000, -28903846116332227443338554449665561, 33⟩),
     (2, -1, ⟨-98765696693, 129729600, -761319673328214994881661548328215, 30⟩),
     (2, -2, ⟨12752830987157, 31135104000, 40959654373266265627376738487849599, 32⟩),
     (2, -3, ⟨-157580595421, 1297296000, -12146849710551793885127218460551794, 32⟩),
     (2, -4, ⟨478185649297, 31135104000, 15358408608399059787948676837565726, 33⟩),
     (3, 3, ⟨46388292547, 20756736000, 22348548705827351660684994018327352, 34⟩),
     (3, -1, ⟨72812006087, 691891200, 10523620778382497132497132497132497, 32⟩),
     (3, -2, ⟨-108473646221, 1945944000, -55743457273693384804495915607026718, 33⟩),
     (3, -3, ⟨508082860927, 31135104000, 16318649872728865784421339976895532, 33⟩),
     (3, -4, ⟨-7942541267, 3891888000, -20407938941202830091718980607869497, 34⟩),
     (-1, -1, ⟨420341161931, 226437120, 18563262151143770067381178492289603, 31⟩),
     (-1, -2, ⟨-74851467823, 35380800, -21155956853151992040880929769818659, 31⟩),
     (-1, -3, ⟨4100880843289, 6227020800, 65856225231960040987818765596543374, 32⟩),
     (-1, -4, ⟨-67513265377, 778377600, -86735879060497116052671608227163783, 33⟩),
     (-2, -2, ⟨12780967457077, 20756736000, 61575035001057006265339598672932006, 32⟩),
     (-2, -3, ⟨-1521688484269, 3891888000, -39098979319780014224458668903113348, 32⟩),
     (-2, -4, ⟨1631589107891, 31135104000, 52403522014604479882257660035437813, 33⟩),
     (-3, -3, ⟨3944861897609, 62270208000, 63350710143910230715786271341826897, 33⟩),
     (-3, -4, ⟨-2407377043, 138996000, -1731975771245215689660134104578549, 32⟩),
     (-4, -4, ⟨25116366157, 20756736000, 12100344754107774941108274441607775, 34⟩)],
    -- sigma5, 1232-1267
    [(0, 0, ⟨49883478342517, 20756736000, 24032428963068663589496922830256164, 31⟩),
     (0, 1, ⟨-6905100758509, 3891888000, -17742290524570594015038459482903927, 31⟩),
     (0, 2, ⟨8624638348211, 31135104000, 27700689062130641991753102864213975, 32⟩),
     (0, -1, ⟨-253865691211, 35380800, -71752388643275448831004386559942115, 31⟩),
     (0, -2, ⟨39896100785477, 6227020800, 64069323143222839403394958950514506, 31⟩),
     (0, -3, ⟨-4456767285989, 1297296000, -34354282183780725447392114058780725, 31⟩),
     (0, -4, ⟨31959522170837, 31135104000, 10264787350906873476317920762365207, 31⟩),
     (0, -5, ⟨-256879392281, 1945944000, -13200759748533359644470755581866693, 32⟩),
     (1, 1, ⟨20863031646089, 62270208000, 33504033977353986034541590097145653, 32⟩),
     (1, 2, ⟨-104391937861, 972972000, -10729182120451564896009340453784898, 32⟩),
     (1, -1, ⟨3240510296069, 1245404160, 26019748449121930024707802485580263, 31⟩),
     (1, -2, ⟨-37187936869, 16216200, -22932584001800668467335134001800668, 31⟩),
     (1, -3, ⟨37913679009467, 31135104000, 12177148664564280883725328169772614, 31⟩),
     (1, -4, ⟨-468561665821, 1297296000, -36118331192033275366608699942033275, 32⟩),
     (1, -5, ⟨1438198790527, 31135104000, 46192194846273839329394884950440506, 33⟩),
     (2, 2, ⟨26446172491, 2965248000, 89187051103314124147457480790814124, 34⟩),
     (2, -1, ⟨-310726966393, 778377600, -39919823796702268924491146713368936, 32⟩),
     (2, -2, ⟨721220745563, 2075673600, 34746346707064154980821647488314155, 32⟩),
     (2, -3, ⟨-25412164549, 138996000, -18282658888744999856110967222078333, 32⟩),
     (2, -4, ⟨1677021138577, 31135104000, 53862711959369077424632980188535744, 33⟩),
     (2, -5, ⟨-26674345787, 3891888000, -68538318129915352137574359796582019, 34⟩),
     (-1, -1, ⟨1231949387723, 226437120, 54405805361020313277257721702166147, 31⟩),
     (-1, -2, ⟨-1532094364651, 155675520, -98415882256311075755520199964644409, 31⟩),
     (-1, -3, ⟨33191727291659, 6227020800, 53302740359658024588580144135699691, 31⟩),
     (-1, -4, ⟨-41643930661, 25945920, -16050280992541409208075874742541409, 31⟩),
     (-1, -5, ⟨431000077397, 2075673600, 20764347409775795192461859128525795, 32⟩),
     (-2, -2, ⟨203912134273, 45287424, 45026216168311979943924388368832813, 31⟩),
     (-2, -3, ⟨-5445142127, 1105650, -4924833470809026364581920137475693, 30⟩),
     (-2, -4, ⟨9306913817431, 6227020800, 14946013697964522617300395078172856, 31⟩),
     (-2, -5, ⟨-151441370209, 778377600, -19456028823157295379517601739823962, 32⟩),
     (-3, -3, ⟨28199161918747, 20756736000, 13585547322443663589496922830256164, 31⟩),
     (-3, -4, ⟨-3233549114749, 3891888000, -83084331171631866076310520754965199, 32⟩),
     (-3, -5, ⟨3388533713021, 31135104000, 10883322287990430351541462652573764, 32⟩),
     (-4, -4, ⟨7965255985319, 62270208000, 12791439503974356404911960467516023, 32⟩),
     (-4, -5, ⟨-65611168187, 1945944000, -33716884035203479647924092368536813, 33⟩),
     (-5, -5, ⟨46388292547, 20756736000, 22348548705827351660684994018327352, 34⟩)],
    -- sigma6, 1268-1303
    [(0, 0, ⟨102080471419559, 62270208000, 16393147654101139344194899750455306, 31⟩),
     (0, 1, ⟨-1069457397287, 1945944000, -54958282318864263308707753152197597, 32⟩),
     (0, -1, ⟨-32903428273669, 3891888000, -84543615524570594015038459482903927, 31⟩),
     (0, -2, ⟨76273513229143, 6227020800, 12248796925352007817285595063372841, 30⟩),
     (0, -3, ⟨-1397571412901, 129729600, -10772957080735622402289068955735622, 30⟩),
     (0, -4, ⟨178922840432597, 31135104000, 57466594758314280883725328169772614, 31⟩),
     (0, -5, ⟨-2230862726341, 1297296000, -1719625071179592012925346258679592, 30⟩),
     (0, -6, ⟨6925711076497, 31135104000, 22244059555725267530823086378641934, 32⟩),
     (1, 1, ⟨986005096387, 20756736000, 47502897198625063208396541729875063, 33⟩),
     (1, -1, ⟨43315366304381, 31135104000, 1391206732580080670358448136225914, 30⟩),
     (1, -2, ⟨-1550584925161, 778377600, -19920729028700209255764811320366876, 31⟩),
     (1, -3, ⟨721470910481, 415134720, 17379199467608972817306150639483973, 31⟩),
     (1, -4, ⟨-1793558121581, 1945944000, -92169051194741472519250297028074806, 32⟩),
     (1, -5, ⟨1221480056521, 4447872000, 27462122482863715502604391493280382, 32⟩),
     (1, -6, ⟨-137801870867, 3891888000, -35407460560786949675838564727453616, 33⟩),
     (-1, -1, ⟨229456135916827, 20756736000, 1105453843594807006265339598672932, 29⟩),
     (-1, -2, ⟨-11450077957, 353808, -32362405476981865870754759643648533, 30⟩),
     (-1, -3, ⟨178559835040523, 6227020800, 28675002184113950607006162561718117, 30⟩),
     (-1, -4, ⟨-19952704102349, 1297296000, -15380224792452146618813285479952147, 30⟩),
     (-1, -5, ⟨143887855797947, 31135104000, 46214027676909959896071007182118293, 31⟩),
     (-1, -6, ⟨-583488131053, 972972000, -59969673439009550120661231772342883, 32⟩),
     (-2, -2, ⟨5407733702789, 226437120, 23881833962510210340071451182562294, 30⟩),
     (-2, -3, ⟨-6630479776771, 155675520, -42591666157729873007650785428563206, 30⟩),
     (-2, -4, ⟨142950967195973, 6227020800, 22956558487161790113179002067890957, 30⟩),
     (-2, -5, ⟨-224563041869, 32432400, -6924034048328214994881661548328215, 30⟩),
     (-2, -6, ⟨41566759079, 46126080, 90115524837575618825618825618825619, 32⟩),
     (-3, -3, ⟨4322531771339, 226437120, 19089324980546475772170216614661059, 30⟩),
     (-3, -4, ⟨-29244985495, 1415232, -20664446179142359697915253470809026, 30⟩),
     (-3, -5, ⟨38941083744793, 6227020800, 62535657091097238666683111127555572, 31⟩),
     (-3, -6, ⟨-90744192823, 111196800, -81606838346966819189041411263633486, 32⟩),
     (-4, -4, ⟨116487285372277, 20756736000, 56120232666772367293200626533959867, 31⟩),
     (-4, -5, ⟨-13257668940469, 3891888000, -3406487787024960636071747182858294, 30⟩),
     (-4, -6, ⟨13873328286131, 31135104000, 44558477421919001780112891224002335, 32⟩),
     (-5, -5, ⟨32268504444809, 62270208000, 51820132742786084799973688862577751, 32⟩),
     (-5, -6, ⟨-132173819131, 972972000, -1358454499523110634221745332856444, 31⟩),
     (-6, -6, ⟨26446172491, 2965248000, 89187051103314124147457480790814124, 34⟩)],
    -- sigma7, 1304-1339
    [(0, 0, ⟨5870785406797, 20756736000, 28283760061297691506024839358172691, 32⟩),
     (0, -1, ⟨-3130718954431, 972972000, -3217686587518448629559740670851782, 30⟩),
     (0, -2, ⟨36019630238453, 4447872000, 80981714937959095945207056318167429, 31⟩),
     (0, -3, ⟨-9030771744409, 778377600, -11602044745903530625752847975070197, 30⟩),
     (0, -4, ⟨7028987165449, 691891200, 10159093171656179468679468679468679, 30⟩),
     (0, -5, ⟨-5269260407953, 972972000, -54156341682525293636404747515858627, 31⟩),
     (0, -6, ⟨50528822994577, 31135104000, 16228891669858241038796594352149908, 31⟩),
     (0, -7, ⟨-819100494587, 3891888000, -21046353198935837824726713615602504, 32⟩),
     (-1, -1, ⟨581791881407369, 62270208000, 93430213274278608479997368886257775, 31⟩),
     (-1, -2, ⟨-185432400549349, 3891888000, -47645872787024960636071747182858294, 30⟩),
     (-1, -3, ⟨428668917728281, 6227020800, 68840129412813427570372014816459261, 30⟩),
     (-1, -4, ⟨-393303816739, 6486480, -60634399048328214994881661548328215, 30⟩),
     (-1, -5, ⟨1010731494899387, 31135104000, 32462762767690995989607100718211829, 30⟩),
     (-1, -6, ⟨-12661520644021, 1297296000, -97599319230314438647771981105314439, 31⟩),
     (-1, -7, ⟨39509061792127, 31135104000, 12689555105429228693117582006470895, 31⟩),
     (-2, -2, ⟨1272280750118197, 20756736000, 61294837016677236729320062653395987, 30⟩),
     (-2, -3, ⟨-6306477584539, 35380800, -17824575997543865599421154976710532, 29⟩),
     (-2, -4, ⟨982150494698309, 6227020800, 15772397848716179011317900206789096, 29⟩),
     (-2, -5, ⟨-109928049802589, 1297296000, -84736289792452146618813285479952147, 30⟩),
     (-2, -6, ⟨795325997722517, 31135104000, 2554435012397957623652068096512541, 29⟩),
     (-2, -7, ⟨-6476591199161, 1945944000, -33282515833759861537639315417093195, 31⟩),
     (-3, -3, ⟨5896382977423, 45287424, 13019912498054647577217021661466106, 29⟩),
     (-3, -4, ⟨-35999233471051, 155675520, -23124530736143357671135448913226691, 29⟩),
     (-3, -5, ⟨775760249154827, 6227020800, 12457967848041024690330245885801441, 29⟩),
     (-3, -6, ⟨-4882688924777, 129729600, -37637431432587474254140920807587474, 30⟩),
     (-3, -7, ⟨10196716797013, 2075673600, 49124856610466115674449007782341116, 31⟩),
     (-4, -4, ⟨23315424178373, 226437120, 10296644021251021034007145118256229, 29⟩),
     (-4, -5, ⟨-983492927359, 8845200, -11118945047698186587075475964364853, 29⟩),
     (-4, -6, ⟨41910140004779, 1245404160, 33651838777203859669137446915224693, 30⟩),
     (-4, -7, ⟨-3423798156193, 778377600, -4398633974298592354147909703465259, 30⟩),
     (-5, -5, ⟨624177436330267, 20756736000, 3007107843594807006265339598672932, 29⟩),
     (-5, -6, ⟨-70944310593109, 3891888000, -18228764700605207549651994096438541, 30⟩),
     (-5, -7, ⟨10610581100123, 4447872000, 23855410182943663846441624219401997, 31⟩),
     (-6, -6, ⟨172229708657639, 62270208000, 27658444413360398603454159009714565, 31⟩),
     (-6, -7, ⟨-1410106709147, 1945944000, -7246388946172140616585061029505474, 31⟩),
     (-7, -7, ⟨986005096387, 20756736000, 47502897198625063208396541729875063, 33⟩)]]
  -- 1340-1355
  omega := [(⟨1, 6435, 1554001554001554001554001554001554, 37⟩, 0),
    (⟨56, 6435, 87024087024087024087024087024087024, 37⟩, 1),
    (⟨196, 2145, 91375291375291375291375291375291375, 36⟩, 2),
    (⟨392, 1287, 30458430458430458430458430458430458, 35⟩, 3),
    (⟨490, 1287, 38073038073038073038073038073038073, 35⟩, 4),
    (⟨392, 2145, 18275058275058275058275058275058275, 35⟩, 5),
    (⟨196, 6435, 30458430458430458430458430458430458, 36⟩, 6),
    (⟨8, 6435, 12432012432012432012432012432012432, 37⟩, 7),
    (⟨8, 6435, 12432012432012432012432012432012432, 37⟩, 0),
    (⟨196, 6435, 30458430458430458430458430458430458, 36⟩, 1),
    (⟨392, 2145, 18275058275058275058275058275058275, 35⟩, 2),
    (⟨490, 1287, 38073038073038073038073038073038073, 35⟩, 3),
    (⟨392, 1287, 30458430458430458430458430458430458, 35⟩, 4),
    (⟨196, 2145, 91375291375291375291375291375291375, 36⟩, 5),
    (⟨56, 6435, 87024087024087024087024087024087024, 37⟩, 6),
    (⟨1, 6435, 1554001554001554001554001554001554, 37⟩, 7)]
  fr := [
    -- fr0, 1356-1363
    [(0, ⟨761, 280, 27178571428571428571428571428571429, 34⟩),
     (1, ⟨-1479, 280, -52821428571428571428571428571428571, 34⟩),
     (2, ⟨2441, 280, 87178571428571428571428571428571429, 34⟩),
     (3, ⟨-8357, 840, -99488095238095238095238095238095238, 34⟩),
     (4, ⟨6343, 840, 75511904761904761904761904761904762, 34⟩),
     (5, ⟨-613, 168, -36488095238095238095238095238095238, 34⟩),
     (6, ⟨57, 56, 10178571428571428571428571428571429, 34⟩),
     (7, ⟨-1, 8, -125, 3⟩)],
    -- fr1, 1364-1371
    [(0, ⟨481, 280, 17178571428571428571428571428571429, 34⟩),
     (1, ⟨-499, 280, -17821428571428571428571428571428571, 34⟩),
     (2, ⟨481, 280, 17178571428571428571428571428571429, 34⟩),
     (3, ⟨-1007, 840, -11988095238095238095238095238095238, 34⟩),
     (4, ⟨463, 840, 55119047619047619047619047619047619, 35⟩),
     (5, ⟨-25, 168, -14880952380952380952380952380952381, 35⟩),
     (6, ⟨1, 56, 17857142857142857142857142857142857, 36⟩),
     (-1, ⟨1, 8, 125, 3⟩)],
    -- fr2, 1372-1379
    [(0, ⟨341, 280, 12178571428571428571428571428571429, 34⟩),
     (1, ⟨-219, 280, -78214285714285714285714285714285714, 35⟩),
     (2, ⟨131, 280, 46785714285714285714285714285714286, 35⟩),
     (3, ⟨-167, 840, -19880952380952380952380952380952381, 35⟩),
     (4, ⟨43, 840, 5119047619047619047619047619047619, 35⟩),
     (5, ⟨-1, 168, -59523809523809523809523809523809524, 37⟩),
     (-1, ⟨15, 56, 26785714285714285714285714285714286, 35⟩),
     (-2, ⟨-1, 56, -17857142857142857142857142857142857, 36⟩)],
    -- fr3, 1380-1387
    [(0, ⟨743, 840, 88452380952380952380952380952380952, 35⟩),
     (1, ⟨-307, 840, -36547619047619047619047619047619048, 35⟩),
     (2, ⟨113, 840, 13452380952380952380952380952380952, 35⟩),
     (3, ⟨-9, 280, -32142857142857142857142857142857143, 36⟩),
     (4, ⟨1, 280, 35714285714285714285714285714285714, 37⟩),
     (-1, ⟨73, 168, 43452380952380952380952380952380952, 35⟩),
     (-2, ⟨-11, 168, -65476190476190476190476190476190476, 36⟩),
     (-3, ⟨1, 168, 59523809523809523809523809523809524, 37⟩)],
    -- fr4, 1388-1395
    [(0, ⟨533, 840, 63452380952380952380952380952380952, 35⟩),
     (1, ⟨-139, 840, -16547619047619047619047619047619048, 35⟩),
     (2, ⟨29, 840, 34523809523809523809523809523809524, 36⟩),
     (3, ⟨-1, 280, -35714285714285714285714285714285714, 37⟩),
     (-1, ⟨533, 840, 63452380952380952380952380952380952, 35⟩),
     (-2, ⟨-139, 840, -16547619047619047619047619047619048, 35⟩),
     (-3, ⟨29, 840, 34523809523809523809523809523809524, 36⟩),
     (-4, ⟨-1, 280, -35714285714285714285714285714285714, 37⟩)],
    -- fr5, 1396-1403
    [(0, ⟨73, 168, 43452380952380952380952380952380952, 35⟩),
     (1, ⟨-11, 168, -65476190476190476190476190476190476, 36⟩),
     (2, ⟨1, 168, 59523809523809523809523809523809524, 37⟩),
     (-1, ⟨743, 840, 88452380952380952380952380952380952, 35⟩),
     (-2, ⟨-307, 840, -36547619047619047619047619047619048, 35⟩),
     (-3, ⟨113, 840, 13452380952380952380952380952380952, 35⟩),
     (-4, ⟨-9, 280, -32142857142857142857142857142857143, 36⟩),
     (-5, ⟨1, 280, 35714285714285714285714285714285714, 37⟩)],
    -- fr6, 1404-1411
    [(0, ⟨15, 56, 26785714285714285714285714285714286, 35⟩),
     (1, ⟨-1, 56, -17857142857142857142857142857142857, 36⟩),
     (-1, ⟨341, 280, 12178571428571428571428571428571429, 34⟩),
     (-2, ⟨-219, 280, -78214285714285714285714285714285714, 35⟩),
     (-3, ⟨131, 280, 46785714285714285714285714285714286, 35⟩),
     (-4, ⟨-167, 840, -19880952380952380952380952380952381, 35⟩),
     (-5, ⟨43, 840, 5119047619047619047619047619047619, 35⟩),
     (-6, ⟨-1, 168, -59523809523809523809523809523809524, 37⟩)],
    -- fr7, 1412-1418
    [(0, ⟨1, 8, 125, 3⟩),
     (-1, ⟨481, 280, 17178571428571428571428571428571429, 34⟩),
     (-2, ⟨-499, 280, -17821428571428571428571428571428571, 34⟩),
     (-3, ⟨481, 280, 17178571428571428571428571428571429, 34⟩),
     (-4, ⟨-1007, 840, -11988095238095238095238095238095238, 34⟩),
     (-5, ⟨463, 840, 55119047619047619047619047619047619, 35⟩),
     (-6, ⟨-25, 168, -14880952380952380952380952380952381, 35⟩),
     (-7, ⟨1, 56, 17857142857142857142857142857142857, 36⟩)],
    -- fr8, 1419-1425
    [(0, ⟨1, 8, 125, 3⟩),
     (1, ⟨481, 280, 17178571428571428571428571428571429, 34⟩),
     (2, ⟨-499, 280, -17821428571428571428571428571428571, 34⟩),
     (3, ⟨481, 280, 17178571428571428571428571428571429, 34⟩),
     (4, ⟨-1007, 840, -11988095238095238095238095238095238, 34⟩),
     (5, ⟨463, 840, 55119047619047619047619047619047619, 35⟩),
     (6, ⟨-25, 168, -14880952380952380952380952380952381, 35⟩),
     (7, ⟨1, 56, 17857142857142857142857142857142857, 36⟩)],
    -- fr9, 1426-1433
    [(0, ⟨15, 56, 26785714285714285714285714285714286, 35⟩),
     (1, ⟨341, 280, 12178571428571428571428571428571429, 34⟩),
     (2, ⟨-219, 280, -78214285714285714285714285714285714, 35⟩),
     (3, ⟨131, 280, 46785714285714285714285714285714286, 35⟩),
     (4, ⟨-167, 840, -19880952380952380952380952380952381, 35⟩),
     (5, ⟨43, 840, 5119047619047619047619047619047619, 35⟩),
     (6, ⟨-1, 168, -59523809523809523809523809523809524, 37⟩),
     (-1, ⟨-1, 56, -17857142857142857142857142857142857, 36⟩)],
    -- fr10, 1434-1441
    [(0, ⟨73, 168, 43452380952380952380952380952380952, 35⟩),
     (1, ⟨743, 840, 88452380952380952380952380952380952, 35⟩),
     (2, ⟨-307, 840, -36547619047619047619047619047619048, 35⟩),
     (3, ⟨113, 840, 13452380952380952380952380952380952, 35⟩),
     (4, ⟨-9, 280, -32142857142857142857142857142857143, 36⟩),
     (5, ⟨1, 280, 35714285714285714285714285714285714, 37⟩),
     (-1, ⟨-11, 168, -65476190476190476190476190476190476, 36⟩),
     (-2, ⟨1, 168, 59523809523809523809523809523809524, 37⟩)],
    -- fr11, 1442-1449
    [(0, ⟨533, 840, 63452380952380952380952380952380952, 35⟩),
     (1, ⟨533, 840, 63452380952380952380952380952380952, 35⟩),
     (2, ⟨-139, 840, -16547619047619047619047619047619048, 35⟩),
     (3, ⟨29, 840, 34523809523809523809523809523809524, 36⟩),
     (4, ⟨-1, 280, -35714285714285714285714285714285714, 37⟩),
     (-1, ⟨-139, 840, -16547619047619047619047619047619048, 35⟩),
     (-2, ⟨29, 840, 34523809523809523809523809523809524, 36⟩),
     (-3, ⟨-1, 280, -35714285714285714285714285714285714, 37⟩)],
    -- fr12, 1450-1457
    [(0, ⟨743, 840, 88452380952380952380952380952380952, 35⟩),
     (1, ⟨73, 168, 43452380952380952380952380952380952, 35⟩),
     (2, ⟨-11, 168, -65476190476190476190476190476190476, 36⟩),
     (3, ⟨1, 168, 59523809523809523809523809523809524, 37⟩),
     (-1, ⟨-307, 840, -36547619047619047619047619047619048, 35⟩),
     (-2, ⟨113, 840, 13452380952380952380952380952380952, 35⟩),
     (-3, ⟨-9, 280, -32142857142857142857142857142857143, 36⟩),
     (-4, ⟨1, 280, 35714285714285714285714285714285714, 37⟩)],
    -- fr13, 1458-1465
    [(0, ⟨341, 280, 12178571428571428571428571428571429, 34⟩),
     (1, ⟨15, 56, 26785714285714285714285714285714286, 35⟩),
     (2, ⟨-1, 56, -17857142857142857142857142857142857, 36⟩),
     (-1, ⟨-219, 280, -78214285714285714285714285714285714, 35⟩),
     (-2, ⟨131, 280, 46785714285714285714285714285714286, 35⟩),
     (-3, ⟨-167, 840, -19880952380952380952380952380952381, 35⟩),
     (-4, ⟨43, 840, 5119047619047619047619047619047619, 35⟩),
     (-5, ⟨-1, 168, -59523809523809523809523809523809524, 37⟩)],
    -- fr14, 1466-1472
    [(0, ⟨481, 280, 17178571428571428571428571428571429, 34⟩),
     (1, ⟨1, 8, 125, 3⟩),
     (-1, ⟨-499, 280, -17821428571428571428571428571428571, 34⟩),
     (-2, ⟨481, 280, 17178571428571428571428571428571429, 34⟩),
     (-3, ⟨-1007, 840, -11988095238095238095238095238095238, 34⟩),
     (-4, ⟨463, 840, 55119047619047619047619047619047619, 35⟩),
     (-5, ⟨-25, 168, -14880952380952380952380952380952381, 35⟩),
     (-6, ⟨1, 56, 17857142857142857142857142857142857, 36⟩)],
    -- fr15, 1473-1480
    [(0, ⟨761, 280, 27178571428571428571428571428571429, 34⟩),
     (-1, ⟨-1479, 280, -52821428571428571428571428571428571, 34⟩),
     (-2, ⟨2441, 280, 87178571428571428571428571428571429, 34⟩),
     (-3, ⟨-8357, 840, -99488095238095238095238095238095238, 34⟩),
     (-4, ⟨6343, 840, 75511904761904761904761904761904762, 34⟩),
     (-5, ⟨-613, 168, -36488095238095238095238095238095238, 34⟩),
     (-6, ⟨57, 56, 10178571428571428571428571428571429, 34⟩),
     (-7, ⟨-1, 8, -125, 3⟩)]]

/-- `weno17`, weno.f90:1495-2151. -/
def weno17Table : WenoTable where
  k := 9
  sigma := [
    -- sigma0, 1554-1598
    [(0, 0, ⟨109471139332699, 163459296000, 66971498110880766304046727327150608, 32⟩),
     (0, 1, ⟨-894628364420801, 100590336000, -88937804564128406927679414451901224, 31⟩),
     (0, 2, ⟨34709567828765989, 1307674368000, 2654297482472791651445751974852504, 29⟩),
     (0, 3, ⟨-12083632055537503, 261534873600, -46202756401880865649880200144750409, 30⟩),
     (0, 4, ⟨534237095117903, 10461394944, 5106748172473001703739137601571464, 29⟩),
     (0, 5, ⟨-47841342141981299, 1307674368000, -36585057650974236271028599070927113, 30⟩),
     (0, 6, ⟨21644628077515483, 1307674368000, 16552001482310528090124650971211818, 30⟩),
     (0, 7, ⟨-5644399400246309, 1307674368000, -43163646381469098276307271016265725, 31⟩),
     (0, 8, ⟨129739906408601, 261534873600, 49607115342877547325298648049970801, 32⟩),
     (1, 1, ⟨5602753233305651, 186810624000, 29991619926849829482931334783186635, 30⟩),
     (1, 2, ⟨-59111412950734301, 326918592000, -18081386130139181867025782369697714, 29⟩),
     (1, 3, ⟨207178084258860569, 653837184000, 3168649463944537131127739593348059, 28⟩),
     (1, 4, ⟨-46020384090357023, 130767436800, -35192541214019592223130582918942707, 29⟩),
     (1, 5, ⟨165445178916726479, 653837184000, 25303727436328625659809522243384677, 29⟩),
     (1, 6, ⟨-37531036453047161, 326918592000, -11480239231253987842942869397895853, 29⟩),
     (1, 7, ⟨137189721025309, 4572288000, 30004610607492135228577027518826461, 30⟩),
     (1, 8, ⟨-4517524574525093, 1307674368000, -3454625008391303881548590543299538, 30⟩),
     (2, 2, ⟨4660712172178939, 16982784000, 27443746397404212407105925624444143, 29⟩),
     (2, 3, ⟨-45148728224254817, 46702656000, -96672720764007119852027259434666842, 29⟩),
     (2, 4, ⟨228786920178433, 212284800, 10777357595948131943502313872684243, 28⟩),
     (2, 5, ⟨-36294580012168613, 46702656000, -77714166860592710187617595025002432, 29⟩),
     (2, 6, ⟨33008527082236991, 93405312000, 35339025560170486877662803588729515, 29⟩),
     (2, 7, ⟨-30250052825497529, 326918592000, -92530842741111307000857265407529958, 30⟩),
     (2, 8, ⟨13952443929995611, 1307674368000, 10669662319171198284128178308072488, 30⟩),
     (3, 3, ⟨159646773711558347, 186810624000, 85459151248035201145733553140960548, 29⟩),
     (3, 4, ⟨-7140074733899851, 3736212480, -19110462191646688680832199350717869, 28⟩),
     (3, 5, ⟨25802513458691833, 18681062400, 13812123157777061437362363288289214, 28⟩),
     (3, 6, ⟨-29387187771747941, 46702656000, -62924018222321105249345990086730827, 29⟩),
     (3, 7, ⟨107887390486248143, 653837184000, 16500650792942382273566135999998434, 29⟩),
     (3, 8, ⟨-24911758529750003, 1307674368000, -19050429632455717752510080552408595, 30⟩),
     (4, 4, ⟨8001879703767347, 7472424960, 10708544744981081750468324542398616, 28⟩),
     (4, 5, ⟨-5794119024433483, 3736212480, -15508001901523231890708742560594412, 28⟩),
     (4, 6, ⟨150205347326833, 212284800, 70756524879234405854776225146595517, 29⟩),
     (4, 7, ⟨-24293471434588703, 130767436800, -18577615367458745662284022072381861, 29⟩),
     (4, 8, ⟨1123058785015051, 52306974720, 21470536023671815979190317814656439, 30⟩),
     (5, 5, ⟨105045730109557451, 186810624000, 5623113282334384312104219511626919, 28⟩),
     (5, 6, ⟨-23993743892557601, 46702656000, -51375544664007119852027259434666842, 29⟩),
     (5, 7, ⟨88287149743355417, 653837184000, 13502925790062655261894679884097874, 29⟩),
     (5, 8, ⟨-816990037454483, 52306974720, -15619141459200089635770852702069633, 30⟩),
     (6, 6, ⟨1994952741927931, 16982784000, 11746912296169644505871357723209575, 29⟩),
     (6, 7, ⟨-20204125377340061, 326918592000, -61801701927494111439217259323079429, 30⟩),
     (6, 8, ⟨9355064903078053, 1307674368000, 71539713035638953504363557273610184, 31⟩),
     (7, 7, ⟨10637354815456613, 1307674368000, 81345593947258687875420679653483886, 31⟩),
     (7, 8, ⟨-189555672759617, 100590336000, -1884432245654463267723849734431745, 30⟩),
     (8, 8, ⟨17848737251203, 163459296000, 10919377293294472527276760080992885, 32⟩)],
    -- sigma1, 1599-1643
    [(0, 0, ⟨6603455065054091, 1307674368000, 5049770207818351150857764614378371, 30⟩),
     (0, 1, ⟨-10036779580858187, 326918592000, -30701158718003370698476518582338688, 30⟩),
     (0, 2, ⟨35272568778872279, 653837184000, 53947021738782416816477663038509599, 30⟩),
     (0, 3, ⟨-7832368115834609, 130767436800, -59895401389672333166050097267028484, 30⟩),
     (0, 4, ⟨28101378954880001, 653837184000, 42979169191576600513439137777762116, 30⟩),
     (0, 5, ⟨-6356537203415423, 326918592000, -19443792304768714408264672814937365, 30⟩),
     (0, 6, ⟨23159841631123, 4572288000, 50652630873477348758433414518070603, 31⟩),
     (0, 7, ⟨-760053376543163, 1307674368000, -58122526153480665302755249845196935, 32⟩),
     (0, -1, ⟨-147809125548479, 100590336000, -14694167593642295816568303340790113, 31⟩),
     (1, 1, ⟨800572672346869, 16982784000, 47140249345859253700688885874071059, 30⟩),
     (1, 2, ⟨-7795675329471191, 46702656000, -16692145580480885284126024866765608, 29⟩),
     (1, 3, ⟨39564077889589, 212284800, 18637263661641813262183632554002924, 29⟩),
     (1, 4, ⟨-1254519948165511, 9340531200, -13430927227838080557987965395372803, 29⟩),
     (1, 5, ⟨5694325930465457, 93405312000, 6096361982566320210996136922062848, 29⟩),
     (1, 6, ⟨-5205585064855199, 326918592000, -15923184524345433984984249534514085, 30⟩),
     (1, 7, ⟨2394338101248133, 1307674368000, 18309895489579046333345275144216943, 31⟩),
     (1, -1, ⟨1152669616433567, 261534873600, 44073266427807163380906767150153394, 31⟩),
     (2, 2, ⟨27770723927721989, 186810624000, 14865709097851944972894046968121042, 29⟩),
     (2, 3, ⟨-6230647138120121, 18681062400, -33352745174279386808321993507178692, 29⟩),
     (2, 4, ⟨22533757546843859, 93405312000, 24124706683538361287203879796472389, 29⟩),
     (2, 5, ⟨-5129104009946051, 46702656000, -1098246748524548796539537280278021, 28⟩),
     (2, 6, ⟨18799624487562689, 653837184000, 28752761310624219561058185396809735, 30⟩),
     (2, 7, ⟨-4331747069079341, 1307674368000, -33125579082080325673248953672234096, 31⟩),
     (2, -1, ⟨-10036258935621221, 1307674368000, -76748915335635155616967786279955592, 31⟩),
     (3, 3, ⟨1403304354475421, 7472424960, 18779771787436203307152381226455301, 29⟩),
     (3, 4, ⟨-5091060727437401, 18681062400, -27252522465946053474988660173845359, 29⟩),
     (3, 5, ⟨26403598814209, 212284800, 12437818823678850299220669591039961, 29⟩),
     (3, 6, ⟨-4266972749341649, 130767436800, -32630239253428946922663853880785098, 30⟩),
     (3, 7, ⟨984850182064169, 261534873600, 37656552967786281485024871268257512, 31⟩),
     (3, -1, ⟨2214259153735049, 261534873600, 8466401146646353016227354851693476, 30⟩),
     (4, 4, ⟨18518028023237957, 186810624000, 99127274598889820099310840051580792, 30⟩),
     (4, 5, ⟨-4234862610936119, 46702656000, -90677125749253297285704693112100519, 30⟩),
     (4, 6, ⟨3116380997521963, 130767436800, 23831475738782416816477663038509599, 30⟩),
     (4, 7, ⟨-3601784423075141, 1307674368000, -27543435209973779955592124904294216, 31⟩),
     (4, -1, ⟨-7906584673048973, 1307674368000, -60462947554302547895471175894456318, 31⟩),
     (5, 5, ⟨352812369719413, 16982784000, 20774707475488883330318515503700689, 30⟩),
     (5, 6, ⟨-3575411646556907, 326918592000, -10936703307950460645566465672285778, 30⟩),
     (5, 7, ⟨1655072196501883, 1307674368000, 1265660807463256020630359254697879, 30⟩),
     (5, -1, ⟨3563951929254757, 1307674368000, 27254123935346242100541042339984139, 31⟩),
     (6, 6, ⟨269247491159069, 186810624000, 1441285754492576396511581696766882, 30⟩),
     (6, 7, ⟨-33593572337951, 100590336000, -33396421240655762398487266212133937, 32⟩),
     (6, -1, ⟨-7406462028919, 10461394944, -707980347608124869202911530953859, 30⟩),
     (7, 7, ⟨3165355170121, 163459296000, 19364791404222125121596021066920538, 33⟩),
     (7, -1, ⟨105994418298211, 1307674368000, 81055667138541787185967080146974327, 33⟩),
     (-1, -1, ⟨17848737251203, 163459296000, 10919377293294472527276760080992885, 32⟩)],
    -- sigma2, 1644-1688
    [(0, 0, ⟨156622544328763, 16982784000, 92224304524371857994543179728364914, 31⟩),
     (0, 1, ⟨-1544964557143169, 46702656000, -3308087139933045777953185360592768, 29⟩),
     (0, 2, ⟨7883820528109, 212284800, 37137941709010725214428918132621836, 30⟩),
     (0, 3, ⟨-1250454991752101, 46702656000, -26774815371359200641608049015456423, 30⟩),
     (0, 4, ⟨1131898542897407, 93405312000, 12118138879482646554405813665072924, 30⟩),
     (0, 5, ⟨-1029608247917273, 326918592000, -31494331405822064717567363070008573, 31⟩),
     (0, 6, ⟨470643665358907, 1307674368000, 3599089168343376139341747807356273, 31⟩),
     (0, -1, ⟨-1918610096603357, 326918592000, -58687702184994024445082646140847199, 31⟩),
     (0, -2, ⟨1063191201446533, 1307674368000, 81303971956918635572736101836630937, 32⟩),
     (1, 1, ⟨5599666272693707, 186810624000, 29975095381586579358570099310840052, 30⟩),
     (1, 2, ⟨-1267992294203351, 18681062400, -67875812791212077959763144948330134, 30⟩),
     (1, 3, ⟨4601782036044509, 93405312000, 49266812962891328921421514014106607, 30⟩),
     (1, 4, ⟨-209388842757121, 9340531200, -22417230698519694468768542842616917, 30⟩),
     (1, 5, ⟨3825435713279951, 653837184000, 58507466490005423123809367195610582, 31⟩),
     (1, 6, ⟨-877252492928723, 1307674368000, -67084934475730505409738213971018204, 32⟩),
     (1, -1, ⟨1359891017166853, 130767436800, 103993092657059176983118782060581, 28⟩),
     (1, -2, ⟨-1859899247394491, 1307674368000, -1422295406951412387093604024820956, 30⟩),
     (2, 2, ⟨289259235638771, 7472424960, 38710222877737804676462083869491277, 30⟩),
     (2, 3, ⟨-1056291616534871, 18681062400, -5654344458133553474988660173845359, 29⟩),
     (2, 4, ⟨5489435141989, 212284800, 25858823344813194350231387268424305, 30⟩),
     (2, 5, ⟨-886173785909759, 130767436800, -67767160356985677339513318349297185, 31⟩),
     (2, 6, ⟨203891614104599, 261534873600, 77959627830144560881994744428606862, 32⟩),
     (2, -1, ⟨-1512744281500799, 130767436800, -11568203205010737046120644004241888, 30⟩),
     (2, -2, ⟨409921790776919, 261534873600, 1567369525655942963317301941640566, 30⟩),
     (3, 3, ⟨3878296682785739, 186810624000, 20760578813685344790668864742938817, 30⟩),
     (3, 4, ⟨-890937252684641, 46702656000, -1907680052896008740916148323555731, 29⟩),
     (3, 5, ⟨3281427995720729, 653837184000, 50187234314907501498109963718429327, 31⟩),
     (3, 6, ⟨-757402017640571, 1307674368000, -57919772397081273982729009184035639, 32⟩),
     (3, -1, ⟨5414972538444239, 653837184000, 82818363209582142700528943915187301, 31⟩),
     (3, -2, ⟨-1457105112643091, 1307674368000, -11142721370853473821397101820382244, 31⟩),
     (4, 4, ⟨74730821653819, 16982784000, 44003869833013833303185155037006889, 31⟩),
     (4, 5, ⟨-759598480120637, 326918592000, -23235095791695964480356014747549139, 31⟩),
     (4, 6, ⟨70341062456897, 261534873600, 26895481083902762556863085963615064, 32⟩),
     (4, -1, ⟨-1218782466526649, 326918592000, -37280916300001958897461542964188467, 31⟩),
     (4, -2, ⟨652452925567483, 1307674368000, 49894143491193902486891904881322871, 32⟩),
     (5, 5, ⟨402355798141541, 1307674368000, 30768806668354074521402563730606059, 32⟩),
     (5, 6, ⟨-1026441378647, 14370048000, -71429224081019075232038195001157964, 33⟩),
     (5, -1, ⟨4411553510173, 4572288000, 9648459393137527644802777077909353, 31⟩),
     (5, -2, ⟨-168172381487813, 1307674368000, -12860417364073698812455426212039969, 32⟩),
     (6, 6, ⟨679328101453, 163459296000, 41559465755499154970054440953911853, 34⟩),
     (6, -1, ⟨-5748413034701, 52306974720, -10989763918621443836390926338016285, 32⟩),
     (6, -2, ⟨19094704104061, 1307674368000, 14602032869440628203855717083230311, 33⟩),
     (-1, -1, ⟨1239990283564133, 1307674368000, 94824087242806077544834158590772347, 32⟩),
     (-1, -2, ⟨-3844139848343, 14370048000, -26751057813745646500276129905759535, 32⟩),
     (-2, -2, ⟨3165355170121, 163459296000, 19364791404222125121596021066920538, 33⟩)],
    -- sigma3, 1689-1733
    [(0, 0, ⟨1553225813426501, 186810624000, 83144404754330299758540499281240022, 31⟩),
     (0, 1, ⟨-72310955346373, 3736212480, -19354080029830905120256972108823961, 30⟩),
     (0, 2, ⟨266698467235063, 18681062400, 14276407921803365958458551051143644, 30⟩),
     (0, 3, ⟨-305368847812163, 46702656000, -65385756178869784193858267932342006, 31⟩),
     (0, 4, ⟨1114386138224129, 653837184000, 17043786518940608308994552380795767, 31⟩),
     (0, 5, ⟨-253674820236749, 1307674368000, -19398928849903785833018637251441484, 32⟩),
     (0, -1, ⟨-411721854332951, 46702656000, -88158124097471244461985202725943467, 31⟩),
     (0, -2, ⟨1720297891825367, 653837184000, 26310799292586072926681392289857898, 31⟩),
     (0, -3, ⟨-17694932119757, 52306974720, -33829010785804818956273982729009184, 32⟩),
     (1, 1, ⟨85394018909597, 7472424960, 11427885775596600972758380165787573, 30⟩),
     (1, 2, ⟨-63811818908581, 3736212480, -17079279952670411293096478281663467, 30⟩),
     (1, 3, ⟨1679094624733, 212284800, 79096318941959103996141033178070215, 31⟩),
     (1, 4, ⟨-272139518377073, 130767436800, -20810954549280650884486863322842159, 31⟩),
     (1, 5, ⟨2497209723185, 10461394944, 23870714532360169347603210037072471, 32⟩),
     (1, -1, ⟨2145005788633, 212284800, 10104377650368749905786942823979861, 30⟩),
     (1, -2, ⟨-388442316668753, 130767436800, -29704819959333560937396916232895069, 31⟩),
     (1, -3, ⟨19690918384021, 52306974720, 37644919228127365114798977232839667, 32⟩),
     (2, 2, ⟨1206964694318597, 186810624000, 64608996451861163956071363478770886, 31⟩),
     (2, 3, ⟨-282622107973367, 46702656000, -60515210949323096313837054577795319, 31⟩),
     (2, 4, ⟨1051238439516119, 653837184000, 16077984936325049998991797933596875, 31⟩),
     (2, 5, ⟨-48633489917473, 261534873600, -18595413012436212254333947455640577, 32⟩),
     (2, -1, ⟨-343655982425891, 46702656000, -73583819820845092835833576574317315, 31⟩),
     (2, -2, ⟨1397141337414593, 653837184000, 21368337127406216774603017989261375, 31⟩),
     (2, -3, ⟨-350067382006253, 1307674368000, -26770225873713309642542446775251008, 32⟩),
     (3, 3, ⟨24324934655989, 16982784000, 14323290372172783920469105654290839, 31⟩),
     (3, 4, ⟨-251283767228651, 326918592000, -76864324445839715350297360879371461, 32⟩),
     (3, 5, ⟨117272649474139, 1307674368000, 89680315179305403346408637413928419, 33⟩),
     (3, -1, ⟨311458280689841, 93405312000, 33344814552928317395909988502581095, 31⟩),
     (3, -2, ⟨-313421131078079, 326918592000, -95871308254649218604245059271514298, 32⟩),
     (3, -3, ⟨155614950712261, 1307674368000, 11900130072157306366962451618536275, 32⟩),
     (4, 4, ⟨136155780967307, 1307674368000, 10412055500907929396686010442624199, 32⟩),
     (4, 5, ⟨-2466233185151, 100590336000, -24517595658006351624076491801359526, 33⟩),
     (4, -1, ⟨-281678601090911, 326918592000, -86161695291686255641282096308551335, 32⟩),
     (4, -2, ⟨1123540717459, 4572288000, 24572833501717302147196327090506985, 32⟩),
     (4, -3, ⟨-39587674152443, 1307674368000, -30273342600566290215761115232014703, 33⟩),
     (5, 5, ⟨238114846399, 163459296000, 14567225739122233831228540223249218, 34⟩),
     (5, -1, ⟨127326292586533, 1307674368000, 97368500677481352911247091141271035, 33⟩),
     (5, -2, ⟨-36073774922459, 1307674368000, -27586206325685967716390996814277238, 33⟩),
     (5, -3, ⟨883416230471, 261534873600, 3377814278879403714059798715883372, 33⟩),
     (-1, -1, ⟨40385614392181, 16982784000, 2378032623637031478466663651848837, 30⟩),
     (-1, -2, ⟨-472662830894411, 326918592000, -14458120231180091464482998874533266, 31⟩),
     (-1, -3, ⟨247582660569403, 1307674368000, 18933051425337947742048271148800249, 32⟩),
     (-2, -2, ⟨293675114165963, 1307674368000, 22457816819879962654433553904453375, 32⟩),
     (-2, -3, ⟨-6056041731167, 100590336000, -60205005490457850742242276633811025, 33⟩),
     (-3, -3, ⟨679328101453, 163459296000, 41559465755499154970054440953911853, 34⟩)],
    -- sigma4, 1734-1778
    [(0, 0, ⟨52297392889139, 7472424960, 69987177079847182567089974497381905, 31⟩),
     (0, 1, ⟨-207139067201783, 18681062400, -11088184535039238453590305442157294, 30⟩),
     (0, 2, ⟨1143576251161, 212284800, 53869907367885029922066959103996141, 31⟩),
     (0, 3, ⟨-192310346872991, 130767436800, -1470628709860825229542160759091976, 30⟩),
     (0, 4, ⟨45272942020727, 261534873600, 17310480012684243421677284111146545, 32⟩),
     (0, -1, ⟨-207139067201783, 18681062400, -11088184535039238453590305442157294, 30⟩),
     (0, -2, ⟨1143576251161, 212284800, 53869907367885029922066959103996141, 31⟩),
     (0, -3, ⟨-192310346872991, 130767436800, -1470628709860825229542160759091976, 30⟩),
     (0, -4, ⟨45272942020727, 261534873600, 17310480012684243421677284111146545, 32⟩),
     (1, 1, ⟨836484368637131, 186810624000, 44777130482532460252367659775067182, 31⟩),
     (1, 2, ⟨-207059158040897, 46702656000, -44335627943921861745935820009894084, 31⟩),
     (1, 3, ⟨161084839253509, 130767436800, 12318421404854591445199910808376417, 31⟩),
     (1, 4, ⟨-192700060973723, 1307674368000, -14736089173977217545339238460931583, 32⟩),
     (1, -1, ⟨805195803373277, 93405312000, 86204498023975017609276868536127795, 31⟩),
     (1, -2, ⟨-38450763316993, 9340531200, -4116549957778953728027802101876176, 30⟩),
     (1, -3, ⟨723357784442063, 653837184000, 1106327082862976174814799153423492, 30⟩),
     (1, -4, ⟨-167888314942259, 1307674368000, -12838694330227859907092711325515558, 32⟩),
     (2, 2, ⟨19010310966523, 16982784000, 11193871962643462932814784666636518, 31⟩),
     (2, 3, ⟨-207359252612669, 326918592000, -63428406241474635985217995800006382, 32⟩),
     (2, 4, ⟨20216075320673, 261534873600, 77297818995994115868454492793117132, 33⟩),
     (2, -1, ⟨-38450763316993, 9340531200, -4116549957778953728027802101876176, 30⟩),
     (2, -2, ⟨180786151740479, 93405312000, 19355018239270909988502581095173688, 31⟩),
     (2, -3, ⟨-167690675241113, 326918592000, -51294321994728583683610138636593663, 32⟩),
     (2, -4, ⟨76858903972891, 1307674368000, 58775262292891405821300001194181088, 33⟩),
     (3, 3, ⟨119979314906981, 1307674368000, 91750146552525376103418431460759503, 33⟩),
     (3, 4, ⟨-2297804363777, 100590336000, -2284319205154061718215157368596522, 32⟩),
     (3, -1, ⟨723357784442063, 653837184000, 1106327082862976174814799153423492, 30⟩),
     (3, -2, ⟨-167690675241113, 326918592000, -51294321994728583683610138636593663, 32⟩),
     (3, -3, ⟨613753663261, 4572288000, 13423337796328665210940343215475491, 32⟩),
     (3, -4, ⟨-3976300410337, 261534873600, -1520371014237468023843685219346595, 32⟩),
     (4, 4, ⟨238114846399, 163459296000, 14567225739122233831228540223249218, 34⟩),
     (4, -1, ⟨-167888314942259, 1307674368000, -12838694330227859907092711325515558, 32⟩),
     (4, -2, ⟨76858903972891, 1307674368000, 58775262292891405821300001194181088, 33⟩),
     (4, -3, ⟨-3976300410337, 261534873600, -1520371014237468023843685219346595, 32⟩),
     (4, -4, ⟨2227506474493, 1307674368000, 17034106724136692721348806004890661, 34⟩),
     (-1, -1, ⟨836484368637131, 186810624000, 44777130482532460252367659775067182, 31⟩),
     (-1, -2, ⟨-207059158040897, 46702656000, -44335627943921861745935820009894084, 31⟩),
     (-1, -3, ⟨161084839253509, 130767436800, 12318421404854591445199910808376417, 31⟩),
     (-1, -4, ⟨-192700060973723, 1307674368000, -14736089173977217545339238460931583, 32⟩),
     (-2, -2, ⟨19010310966523, 16982784000, 11193871962643462932814784666636518, 31⟩),
     (-2, -3, ⟨-207359252612669, 326918592000, -63428406241474635985217995800006382, 32⟩),
     (-2, -4, ⟨20216075320673, 261534873600, 77297818995994115868454492793117132, 33⟩),
     (-3, -3, ⟨119979314906981, 1307674368000, 91750146552525376103418431460759503, 33⟩),
     (-3, -4, ⟨-2297804363777, 100590336000, -2284319205154061718215157368596522, 32⟩),
     (-4, -4, ⟨238114846399, 163459296000, 14567225739122233831228540223249218, 34⟩)],
    -- sigma5, 1779-1823
    [(0, 0, ⟨1553225813426501, 186810624000, 83144404754330299758540499281240022, 31⟩),
     (0, 1, ⟨-411721854332951, 46702656000, -88158124097471244461985202725943467, 31⟩),
     (0, 2, ⟨1720297891825367, 653837184000, 26310799292586072926681392289857898, 31⟩),
     (0, 3, ⟨-17694932119757, 52306974720, -33829010785804818956273982729009184, 32⟩),
     (0, -1, ⟨-72310955346373, 3736212480, -19354080029830905120256972108823961, 30⟩),
     (0, -2, ⟨266698467235063, 18681062400, 14276407921803365958458551051143644, 30⟩),
     (0, -3, ⟨-305368847812163, 46702656000, -65385756178869784193858267932342006, 31⟩),
     (0, -4, ⟨1114386138224129, 653837184000, 17043786518940608308994552380795767, 31⟩),
     (0, -5, ⟨-253674820236749, 1307674368000, -19398928849903785833018637251441484, 32⟩),
     (1, 1, ⟨40385614392181, 16982784000, 2378032623637031478466663651848837, 30⟩),
     (1, 2, ⟨-472662830894411, 326918592000, -14458120231180091464482998874533266, 31⟩),
     (1, 3, ⟨247582660569403, 1307674368000, 18933051425337947742048271148800249, 32⟩),
     (1, -1, ⟨2145005788633, 212284800, 10104377650368749905786942823979861, 30⟩),
     (1, -2, ⟨-343655982425891, 46702656000, -73583819820845092835833576574317315, 31⟩),
     (1, -3, ⟨311458280689841, 93405312000, 33344814552928317395909988502581095, 31⟩),
     (1, -4, ⟨-281678601090911, 326918592000, -86161695291686255641282096308551335, 32⟩),
     (1, -5, ⟨127326292586533, 1307674368000, 97368500677481352911247091141271035, 33⟩),
     (2, 2, ⟨293675114165963, 1307674368000, 22457816819879962654433553904453375, 32⟩),
     (2, 3, ⟨-6056041731167, 100590336000, -60205005490457850742242276633811025, 33⟩),
     (2, -1, ⟨-388442316668753, 130767436800, -29704819959333560937396916232895069, 31⟩),
     (2, -2, ⟨1397141337414593, 653837184000, 21368337127406216774603017989261375, 31⟩),
     (2, -3, ⟨-313421131078079, 326918592000, -95871308254649218604245059271514298, 32⟩),
     (2, -4, ⟨1123540717459, 4572288000, 24572833501717302147196327090506985, 32⟩),
     (2, -5, ⟨-36073774922459, 1307674368000, -27586206325685967716390996814277238, 33⟩),
     (3, 3, ⟨679328101453, 163459296000, 41559465755499154970054440953911853, 34⟩),
     (3, -1, ⟨19690918384021, 52306974720, 37644919228127365114798977232839667, 32⟩),
     (3, -2, ⟨-350067382006253, 1307674368000, -26770225873713309642542446775251008, 32⟩),
     (3, -3, ⟨155614950712261, 1307674368000, 11900130072157306366962451618536275, 32⟩),
     (3, -4, ⟨-39587674152443, 1307674368000, -30273342600566290215761115232014703, 33⟩),
     (3, -5, ⟨883416230471, 261534873600, 3377814278879403714059798715883372, 33⟩),
     (-1, -1, ⟨85394018909597, 7472424960, 11427885775596600972758380165787573, 30⟩),
     (-1, -2, ⟨-63811818908581, 3736212480, -17079279952670411293096478281663467, 30⟩),
     (-1, -3, ⟨1679094624733, 212284800, 79096318941959103996141033178070215, 31⟩),
     (-1, -4, ⟨-272139518377073, 130767436800, -20810954549280650884486863322842159, 31⟩),
     (-1, -5, ⟨2497209723185, 10461394944, 23870714532360169347603210037072471, 32⟩),
     (-2, -2, ⟨1206964694318597, 186810624000, 64608996451861163956071363478770886, 31⟩),
     (-2, -3, ⟨-282622107973367, 46702656000, -60515210949323096313837054577795319, 31⟩),
     (-2, -4, ⟨1051238439516119, 653837184000, 16077984936325049998991797933596875, 31⟩),
     (-2, -5, ⟨-48633489917473, 261534873600, -18595413012436212254333947455640577, 32⟩),
     (-3, -3, ⟨24324934655989, 16982784000, 14323290372172783920469105654290839, 31⟩),
     (-3, -4, ⟨-251283767228651, 326918592000, -76864324445839715350297360879371461, 32⟩),
     (-3, -5, ⟨117272649474139, 1307674368000, 89680315179305403346408637413928419, 33⟩),
     (-4, -4, ⟨136155780967307, 1307674368000, 10412055500907929396686010442624199, 32⟩),
     (-4, -5, ⟨-2466233185151, 100590336000, -24517595658006351624076491801359526, 33⟩),
     (-5, -5, ⟨238114846399, 163459296000, 14567225739122233831228540223249218, 34⟩)],
    -- sigma6, 1824-1868
    [(0, 0, ⟨156622544328763, 16982784000, 92224304524371857994543179728364914, 31⟩),
     (0, 1, ⟨-1918610096603357, 326918592000, -58687702184994024445082646140847199, 31⟩),
     (0, 2, ⟨1063191201446533, 1307674368000, 81303971956918635572736101836630937, 32⟩),
     (0, -1, ⟨-1544964557143169, 46702656000, -3308087139933045777953185360592768, 29⟩),
     (0, -2, ⟨7883820528109, 212284800, 37137941709010725214428918132621836, 30⟩),
     (0, -3, ⟨-1250454991752101, 46702656000, -26774815371359200641608049015456423, 30⟩),
     (0, -4, ⟨1131898542897407, 93405312000, 12118138879482646554405813665072924, 30⟩),
     (0, -5, ⟨-1029608247917273, 326918592000, -31494331405822064717567363070008573, 31⟩),
     (0, -6, ⟨470643665358907, 1307674368000, 3599089168343376139341747807356273, 31⟩),
     (1, 1, ⟨1239990283564133, 1307674368000, 94824087242806077544834158590772347, 32⟩),
     (1, 2, ⟨-3844139848343, 14370048000, -26751057813745646500276129905759535, 32⟩),
     (1, -1, ⟨1359891017166853, 130767436800, 103993092657059176983118782060581, 28⟩),
     (1, -2, ⟨-1512744281500799, 130767436800, -11568203205010737046120644004241888, 30⟩),
     (1, -3, ⟨5414972538444239, 653837184000, 82818363209582142700528943915187301, 31⟩),
     (1, -4, ⟨-1218782466526649, 326918592000, -37280916300001958897461542964188467, 31⟩),
     (1, -5, ⟨4411553510173, 4572288000, 9648459393137527644802777077909353, 31⟩),
     (1, -6, ⟨-5748413034701, 52306974720, -10989763918621443836390926338016285, 32⟩),
     (2, 2, ⟨3165355170121, 163459296000, 19364791404222125121596021066920538, 33⟩),
     (2, -1, ⟨-1859899247394491, 1307674368000, -1422295406951412387093604024820956, 30⟩),
     (2, -2, ⟨409921790776919, 261534873600, 1567369525655942963317301941640566, 30⟩),
     (2, -3, ⟨-1457105112643091, 1307674368000, -11142721370853473821397101820382244, 31⟩),
     (2, -4, ⟨652452925567483, 1307674368000, 49894143491193902486891904881322871, 32⟩),
     (2, -5, ⟨-168172381487813, 1307674368000, -12860417364073698812455426212039969, 32⟩),
     (2, -6, ⟨19094704104061, 1307674368000, 14602032869440628203855717083230311, 33⟩),
     (-1, -1, ⟨5599666272693707, 186810624000, 29975095381586579358570099310840052, 30⟩),
     (-1, -2, ⟨-1267992294203351, 18681062400, -67875812791212077959763144948330134, 30⟩),
     (-1, -3, ⟨4601782036044509, 93405312000, 49266812962891328921421514014106607, 30⟩),
     (-1, -4, ⟨-209388842757121, 9340531200, -22417230698519694468768542842616917, 30⟩),
     (-1, -5, ⟨3825435713279951, 653837184000, 58507466490005423123809367195610582, 31⟩),
     (-1, -6, ⟨-877252492928723, 1307674368000, -67084934475730505409738213971018204, 32⟩),
     (-2, -2, ⟨289259235638771, 7472424960, 38710222877737804676462083869491277, 30⟩),
     (-2, -3, ⟨-1056291616534871, 18681062400, -5654344458133553474988660173845359, 29⟩),
     (-2, -4, ⟨5489435141989, 212284800, 25858823344813194350231387268424305, 30⟩),
     (-2, -5, ⟨-886173785909759, 130767436800, -67767160356985677339513318349297185, 31⟩),
     (-2, -6, ⟨203891614104599, 261534873600, 77959627830144560881994744428606862, 32⟩),
     (-3, -3, ⟨3878296682785739, 186810624000, 20760578813685344790668864742938817, 30⟩),
     (-3, -4, ⟨-890937252684641, 46702656000, -1907680052896008740916148323555731, 29⟩),
     (-3, -5, ⟨3281427995720729, 653837184000, 50187234314907501498109963718429327, 31⟩),
     (-3, -6, ⟨-757402017640571, 1307674368000, -57919772397081273982729009184035639, 32⟩),
     (-4, -4, ⟨74730821653819, 16982784000, 44003869833013833303185155037006889, 31⟩),
     (-4, -5, ⟨-759598480120637, 326918592000, -23235095791695964480356014747549139, 31⟩),
     (-4, -6, ⟨70341062456897, 261534873600, 26895481083902762556863085963615064, 32⟩),
     (-5, -5, ⟨402355798141541, 1307674368000, 30768806668354074521402563730606059, 32⟩),
     (-5, -6, ⟨-1026441378647, 14370048000, -71429224081019075232038195001157964, 33⟩),
     (-6, -6, ⟨679328101453, 163459296000, 41559465755499154970054440953911853, 34⟩)],
    -- sigma7, 1869-1913
    [(0, 0, ⟨6603455065054091, 1307674368000, 5049770207818351150857764614378371, 30⟩),
     (0, 1, ⟨-147809125548479, 100590336000, -14694167593642295816568303340790113, 31⟩),
     (0, -1, ⟨-10036779580858187, 326918592000, -30701158718003370698476518582338688, 30⟩),
     (0, -2, ⟨35272568778872279, 653837184000, 53947021738782416816477663038509599, 30⟩),
     (0, -3, ⟨-7832368115834609, 130767436800, -59895401389672333166050097267028484, 30⟩),
     (0, -4, ⟨28101378954880001, 653837184000, 42979169191576600513439137777762116, 30⟩),
     (0, -5, ⟨-6356537203415423, 326918592000, -19443792304768714408264672814937365, 30⟩),
     (0, -6, ⟨23159841631123, 4572288000, 50652630873477348758433414518070603, 31⟩),
     (0, -7, ⟨-760053376543163, 1307674368000, -58122526153480665302755249845196935, 32⟩),
     (1, 1, ⟨17848737251203, 163459296000, 10919377293294472527276760080992885, 32⟩),
     (1, -1, ⟨1152669616433567, 261534873600, 44073266427807163380906767150153394, 31⟩),
     (1, -2, ⟨-10036258935621221, 1307674368000, -76748915335635155616967786279955592, 31⟩),
     (1, -3, ⟨2214259153735049, 261534873600, 8466401146646353016227354851693476, 30⟩),
     (1, -4, ⟨-7906584673048973, 1307674368000, -60462947554302547895471175894456318, 31⟩),
     (1, -5, ⟨3563951929254757, 1307674368000, 27254123935346242100541042339984139, 31⟩),
     (1, -6, ⟨-7406462028919, 10461394944, -707980347608124869202911530953859, 30⟩),
     (1, -7, ⟨105994418298211, 1307674368000, 81055667138541787185967080146974327, 33⟩),
     (-1, -1, ⟨800572672346869, 16982784000, 47140249345859253700688885874071059, 30⟩),
     (-1, -2, ⟨-7795675329471191, 46702656000, -16692145580480885284126024866765608, 29⟩),
     (-1, -3, ⟨39564077889589, 212284800, 18637263661641813262183632554002924, 29⟩),
     (-1, -4, ⟨-1254519948165511, 9340531200, -13430927227838080557987965395372803, 29⟩),
     (-1, -5, ⟨5694325930465457, 93405312000, 6096361982566320210996136922062848, 29⟩),
     (-1, -6, ⟨-5205585064855199, 326918592000, -15923184524345433984984249534514085, 30⟩),
     (-1, -7, ⟨2394338101248133, 1307674368000, 18309895489579046333345275144216943, 31⟩),
     (-2, -2, ⟨27770723927721989, 186810624000, 14865709097851944972894046968121042, 29⟩),
     (-2, -3, ⟨-6230647138120121, 18681062400, -33352745174279386808321993507178692, 29⟩),
     (-2, -4, ⟨22533757546843859, 93405312000, 24124706683538361287203879796472389, 29⟩),
     (-2, -5, ⟨-5129104009946051, 46702656000, -1098246748524548796539537280278021, 28⟩),
     (-2, -6, ⟨18799624487562689, 653837184000, 28752761310624219561058185396809735, 30⟩),
     (-2, -7, ⟨-4331747069079341, 1307674368000, -33125579082080325673248953672234096, 31⟩),
     (-3, -3, ⟨1403304354475421, 7472424960, 18779771787436203307152381226455301, 29⟩),
     (-3, -4, ⟨-5091060727437401, 18681062400, -27252522465946053474988660173845359, 29⟩),
     (-3, -5, ⟨26403598814209, 212284800, 12437818823678850299220669591039961, 29⟩),
     (-3, -6, ⟨-4266972749341649, 130767436800, -32630239253428946922663853880785098, 30⟩),
     (-3, -7, ⟨984850182064169, 261534873600, 37656552967786281485024871268257512, 31⟩),
     (-4, -4, ⟨18518028023237957, 186810624000, 99127274598889820099310840051580792, 30⟩),
     (-4, -5, ⟨-4234862610936119, 46702656000, -90677125749253297285704693112100519, 30⟩),
     (-4, -6, ⟨3116380997521963, 130767436800, 23831475738782416816477663038509599, 30⟩),
     (-4, -7, ⟨-3601784423075141, 1307674368000, -27543435209973779955592124904294216, 31⟩),
     (-5, -5, ⟨352812369719413, 16982784000, 20774707475488883330318515503700689, 30⟩),
     (-5, -6, ⟨-3575411646556907, 326918592000, -10936703307950460645566465672285778, 30⟩),
     (-5, -7, ⟨1655072196501883, 1307674368000, 1265660807463256020630359254697879, 30⟩),
     (-6, -6, ⟨269247491159069, 186810624000, 1441285754492576396511581696766882, 30⟩),
     (-6, -7, ⟨-33593572337951, 100590336000, -33396421240655762398487266212133937, 32⟩),
     (-7, -7, ⟨3165355170121, 163459296000, 19364791404222125121596021066920538, 33⟩)],
    -- sigma8, 1914-1958
    [(0, 0, ⟨109471139332699, 163459296000, 66971498110880766304046727327150608, 32⟩),
     (0, -1, ⟨-894628364420801, 100590336000, -88937804564128406927679414451901224, 31⟩),
     (0, -2, ⟨34709567828765989, 1307674368000, 2654297482472791651445751974852504, 29⟩),
     (0, -3, ⟨-12083632055537503, 261534873600, -46202756401880865649880200144750409, 30⟩),
     (0, -4, ⟨534237095117903, 10461394944, 5106748172473001703739137601571464, 29⟩),
     (0, -5, ⟨-47841342141981299, 1307674368000, -36585057650974236271028599070927113, 30⟩),
     (0, -6, ⟨21644628077515483, 1307674368000, 16552001482310528090124650971211818, 30⟩),
     (0, -7, ⟨-5644399400246309, 1307674368000, -43163646381469098276307271016265725, 31⟩),
     (0, -8, ⟨129739906408601, 261534873600, 49607115342877547325298648049970801, 32⟩),
     (-1, -1, ⟨5602753233305651, 186810624000, 29991619926849829482931334783186635, 30⟩),
     (-1, -2, ⟨-59111412950734301, 326918592000, -18081386130139181867025782369697714, 29⟩),
     (-1, -3, ⟨207178084258860569, 653837184000, 3168649463944537131127739593348059, 28⟩),
     (-1, -4, ⟨-46020384090357023, 130767436800, -35192541214019592223130582918942707, 29⟩),
     (-1, -5, ⟨165445178916726479, 653837184000, 25303727436328625659809522243384677, 29⟩),
     (-1, -6, ⟨-37531036453047161, 326918592000, -11480239231253987842942869397895853, 29⟩),
     (-1, -7, ⟨137189721025309, 4572288000, 30004610607492135228577027518826461, 30⟩),
     (-1, -8, ⟨-4517524574525093, 1307674368000, -3454625008391303881548590543299538, 30⟩),
     (-2, -2, ⟨4660712172178939, 16982784000, 27443746397404212407105925624444143, 29⟩),
     (-2, -3, ⟨-45148728224254817, 46702656000, -96672720764007119852027259434666842, 29⟩),
     (-2, -4, ⟨228786920178433, 212284800, 10777357595948131943502313872684243, 28⟩),
     (-2, -5, ⟨-36294580012168613, 46702656000, -77714166860592710187617595025002432, 29⟩),
     (-2, -6, ⟨33008527082236991, 93405312000, 35339025560170486877662803588729515, 29⟩),
     (-2, -7, ⟨-30250052825497529, 326918592000, -92530842741111307000857265407529958, 30⟩),
     (-2, -8, ⟨13952443929995611, 1307674368000, 10669662319171198284128178308072488, 30⟩),
     (-3, -3, ⟨159646773711558347, 186810624000, 85459151248035201145733553140960548, 29⟩),
     (-3, -4, ⟨-7140074733899851, 3736212480, -19110462191646688680832199350717869, 28⟩),
     (-3, -5, ⟨25802513458691833, 18681062400, 13812123157777061437362363288289214, 28⟩),
     (-3, -6, ⟨-29387187771747941, 46702656000, -62924018222321105249345990086730827, 29⟩),
     (-3, -7, ⟨107887390486248143, 653837184000, 16500650792942382273566135999998434, 29⟩),
     (-3, -8, ⟨-24911758529750003, 1307674368000, -19050429632455717752510080552408595, 30⟩),
     (-4, -4, ⟨8001879703767347, 7472424960, 10708544744981081750468324542398616, 28⟩),
     (-4, -5, ⟨-5794119024433483, 3736212480, -15508001901523231890708742560594412, 28⟩),
     (-4, -6, ⟨150205347326833, 212284800, 70756524879234405854776225146595517, 29⟩),
     (-4, -7, ⟨-24293471434588703, 130767436800, -18577615367458745662284022072381861, 29⟩),
     (-4, -8, ⟨1123058785015051, 52306974720, 21470536023671815979190317814656439, 30⟩),
     (-5, -5, ⟨105045730109557451, 186810624000, 5623113282334384312104219511626919, 28⟩),
     (-5, -6, ⟨-23993743892557601, 46702656000, -51375544664007119852027259434666842, 29⟩),
     (-5, -7, ⟨88287149743355417, 653837184000, 13502925790062655261894679884097874, 29⟩),
     (-5, -8, ⟨-816990037454483, 52306974720, -15619141459200089635770852702069633, 30⟩),
     (-6, -6, ⟨1994952741927931, 16982784000, 11746912296169644505871357723209575, 29⟩),
     (-6, -7, ⟨-20204125377340061, 326918592000, -61801701927494111439217259323079429, 30⟩),
     (-6, -8, ⟨9355064903078053, 1307674368000, 71539713035638953504363557273610184, 31⟩),
     (-7, -7, ⟨10637354815456613, 1307674368000, 81345593947258687875420679653483886, 31⟩),
     (-7, -8, ⟨-189555672759617, 100590336000, -1884432245654463267723849734431745, 30⟩),
     (-8, -8, ⟨17848737251203, 163459296000, 10919377293294472527276760080992885, 32⟩)]]
  -- 1959-1976
  omega := [(⟨1, 24310, 41135335252982311805841217605923488, 39⟩, 0),
    (⟨36, 12155, 29617441382147264500205676676264912, 37⟩, 1),
    (⟨504, 12155, 41464417935006170300287947346770876, 36⟩, 2),
    (⟨2352, 12155, 19350061703002879473467708761826409, 35⟩, 3),
    (⟨882, 2431, 36281365693130399012751953928424517, 35⟩, 4),
    (⟨3528, 12155, 29025092554504319210201563142739613, 35⟩, 5),
    (⟨1176, 12155, 96750308515014397367338543809132044, 36⟩, 6),
    (⟨144, 12155, 11846976552858905800082270670505965, 36⟩, 7),
    (⟨9, 24310, 37021801727684080625257095845331139, 38⟩, 8),
    (⟨9, 24310, 37021801727684080625257095845331139, 38⟩, 0),
    (⟨144, 12155, 11846976552858905800082270670505965, 36⟩, 1),
    (⟨1176, 12155, 96750308515014397367338543809132044, 36⟩, 2),
    (⟨3528, 12155, 29025092554504319210201563142739613, 35⟩, 3),
    (⟨882, 2431, 36281365693130399012751953928424517, 35⟩, 4),
    (⟨2352, 12155, 19350061703002879473467708761826409, 35⟩, 5),
    (⟨504, 12155, 41464417935006170300287947346770876, 36⟩, 6),
    (⟨36, 12155, 29617441382147264500205676676264912, 37⟩, 7),
    (⟨1, 24310, 41135335252982311805841217605923488, 39⟩, 8)]
  fr := [
    -- fr0, 1977-1985
    [(0, ⟨7129, 2520, 2828968253968253968253968253968254, 33⟩),
     (1, ⟨-15551, 2520, -6171031746031746031746031746031746, 33⟩),
     (2, ⟨29809, 2520, 11828968253968253968253968253968254, 33⟩),
     (3, ⟨-40751, 2520, -16171031746031746031746031746031746, 33⟩),
     (4, ⟨38629, 2520, 15328968253968253968253968253968254, 33⟩),
     (5, ⟨-4975, 504, -9871031746031746031746031746031746, 33⟩),
     (6, ⟨2081, 504, 4128968253968253968253968253968254, 33⟩),
     (7, ⟨-73, 72, -10138888888888888888888888888888889, 34⟩),
     (8, ⟨1, 9, 11111111111111111111111111111111111, 35⟩)],
    -- fr1, 1986-1994
    [(0, ⟨4609, 2520, 1828968253968253968253968253968254, 33⟩),
     (1, ⟨-5471, 2520, -2171031746031746031746031746031746, 33⟩),
     (2, ⟨6289, 2520, 24956349206349206349206349206349206, 34⟩),
     (3, ⟨-5471, 2520, -2171031746031746031746031746031746, 33⟩),
     (4, ⟨3349, 2520, 1328968253968253968253968253968254, 33⟩),
     (5, ⟨-271, 504, -5376984126984126984126984126984127, 34⟩),
     (6, ⟨65, 504, 12896825396825396825396825396825397, 35⟩),
     (7, ⟨-1, 72, -13888888888888888888888888888888889, 36⟩),
     (-1, ⟨1, 9, 11111111111111111111111111111111111, 35⟩)],
    -- fr2, 1995-2003
    [(0, ⟨3349, 2520, 1328968253968253968253968253968254, 33⟩),
     (1, ⟨-2531, 2520, -10043650793650793650793650793650794, 34⟩),
     (2, ⟨1879, 2520, 74563492063492063492063492063492063, 35⟩),
     (3, ⟨-1061, 2520, -42103174603174603174603174603174603, 35⟩),
     (4, ⟨409, 2520, 1623015873015873015873015873015873, 34⟩),
     (5, ⟨-19, 504, -37698412698412698412698412698412698, 36⟩),
     (6, ⟨1, 252, 39682539682539682539682539682539683, 37⟩),
     (-1, ⟨17, 72, 23611111111111111111111111111111111, 35⟩),
     (-2, ⟨-1, 72, -13888888888888888888888888888888889, 36⟩)],
    -- fr3, 2004-2012
    [(0, ⟨2509, 2520, 99563492063492063492063492063492063, 35⟩),
     (1, ⟨-1271, 2520, -50436507936507936507936507936507937, 35⟩),
     (2, ⟨619, 2520, 24563492063492063492063492063492063, 35⟩),
     (3, ⟨-221, 2520, -87698412698412698412698412698412698, 36⟩),
     (4, ⟨7, 360, 19444444444444444444444444444444444, 36⟩),
     (5, ⟨-1, 504, -19841269841269841269841269841269841, 37⟩),
     (-1, ⟨191, 504, 37896825396825396825396825396825397, 35⟩),
     (-2, ⟨-25, 504, -49603174603174603174603174603174603, 36⟩),
     (-3, ⟨1, 252, 39682539682539682539682539682539683, 37⟩)],
    -- fr4, 2013-2021
    [(0, ⟨1879, 2520, 74563492063492063492063492063492063, 35⟩),
     (1, ⟨-641, 2520, -25436507936507936507936507936507937, 35⟩),
     (2, ⟨199, 2520, 78968253968253968253968253968253968, 36⟩),
     (3, ⟨-41, 2520, -1626984126984126984126984126984127, 35⟩),
     (4, ⟨1, 630, 15873015873015873015873015873015873, 37⟩),
     (-1, ⟨275, 504, 54563492063492063492063492063492063, 35⟩),
     (-2, ⟨-61, 504, -12103174603174603174603174603174603, 35⟩),
     (-3, ⟨11, 504, 21825396825396825396825396825396825, 36⟩),
     (-4, ⟨-1, 504, -19841269841269841269841269841269841, 37⟩)],
    -- fr5, 2022-2030
    [(0, ⟨275, 504, 54563492063492063492063492063492063, 35⟩),
     (1, ⟨-61, 504, -12103174603174603174603174603174603, 35⟩),
     (2, ⟨11, 504, 21825396825396825396825396825396825, 36⟩),
     (3, ⟨-1, 504, -19841269841269841269841269841269841, 37⟩),
     (-1, ⟨1879, 2520, 74563492063492063492063492063492063, 35⟩),
     (-2, ⟨-641, 2520, -25436507936507936507936507936507937, 35⟩),
     (-3, ⟨199, 2520, 78968253968253968253968253968253968, 36⟩),
     (-4, ⟨-41, 2520, -1626984126984126984126984126984127, 35⟩),
     (-5, ⟨1, 630, 15873015873015873015873015873015873, 37⟩)],
    -- fr6, 2031-2039
    [(0, ⟨191, 504, 37896825396825396825396825396825397, 35⟩),
     (1, ⟨-25, 504, -49603174603174603174603174603174603, 36⟩),
     (2, ⟨1, 252, 39682539682539682539682539682539683, 37⟩),
     (-1, ⟨2509, 2520, 99563492063492063492063492063492063, 35⟩),
     (-2, ⟨-1271, 2520, -50436507936507936507936507936507937, 35⟩),
     (-3, ⟨619, 2520, 24563492063492063492063492063492063, 35⟩),
     (-4, ⟨-221, 2520, -87698412698412698412698412698412698, 36⟩),
     (-5, ⟨7, 360, 19444444444444444444444444444444444, 36⟩),
     (-6, ⟨-1, 504, -19841269841269841269841269841269841, 37⟩)],
    -- fr7, 2040-2048
    [(0, ⟨17, 72, 23611111111111111111111111111111111, 35⟩),
     (1, ⟨-1, 72, -13888888888888888888888888888888889, 36⟩),
     (-1, ⟨3349, 2520, 1328968253968253968253968253968254, 33⟩),
     (-2, ⟨-2531, 2520, -10043650793650793650793650793650794, 34⟩),
     (-3, ⟨1879, 2520, 74563492063492063492063492063492063, 35⟩),
     (-4, ⟨-1061, 2520, -42103174603174603174603174603174603, 35⟩),
     (-5, ⟨409, 2520, 1623015873015873015873015873015873, 34⟩),
     (-6, ⟨-19, 504, -37698412698412698412698412698412698, 36⟩),
     (-7, ⟨1, 252, 39682539682539682539682539682539683, 37⟩)],
    -- fr8, 2049-2057
    [(0, ⟨1, 9, 11111111111111111111111111111111111, 35⟩),
     (-1, ⟨4609, 2520, 1828968253968253968253968253968254, 33⟩),
     (-2, ⟨-5471, 2520, -2171031746031746031746031746031746, 33⟩),
     (-3, ⟨6289, 2520, 24956349206349206349206349206349206, 34⟩),
     (-4, ⟨-5471, 2520, -2171031746031746031746031746031746, 33⟩),
     (-5, ⟨3349, 2520, 1328968253968253968253968253968254, 33⟩),
     (-6, ⟨-271, 504, -5376984126984126984126984126984127, 34⟩),
     (-7, ⟨65, 504, 12896825396825396825396825396825397, 35⟩),
     (-8, ⟨-1, 72, -13888888888888888888888888888888889, 36⟩)],
    -- fr9, 2058-2066
    [(0, ⟨1, 9, 11111111111111111111111111111111111, 35⟩),
     (1, ⟨4609, 2520, 1828968253968253968253968253968254, 33⟩),
     (2, ⟨-5471, 2520, -2171031746031746031746031746031746, 33⟩),
     (3, ⟨6289, 2520, 24956349206349206349206349206349206, 34⟩),
     (4, ⟨-5471, 2520, -2171031746031746031746031746031746, 33⟩),
     (5, ⟨3349, 2520, 1328968253968253968253968253968254, 33⟩),
     (6, ⟨-271, 504, -5376984126984126984126984126984127, 34⟩),
     (7, ⟨65, 504, 12896825396825396825396825396825397, 35⟩),
     (8, ⟨-1, 72, -13888888888888888888888888888888889, 36⟩)],
    -- fr10, 2067-2075
    [(0, ⟨17, 72, 23611111111111111111111111111111111, 35⟩),
     (1, ⟨3349, 2520, 1328968253968253968253968253968254, 33⟩),
     (2, ⟨-2531, 2520, -10043650793650793650793650793650794, 34⟩),
     (3, ⟨1879, 2520, 74563492063492063492063492063492063, 35⟩),
     (4, ⟨-1061, 2520, -42103174603174603174603174603174603, 35⟩),
     (5, ⟨409, 2520, 1623015873015873015873015873015873, 34⟩),
     (6, ⟨-19, 504, -37698412698412698412698412698412698, 36⟩),
     (7, ⟨1, 252, 39682539682539682539682539682539683, 37⟩),
     (-1, ⟨-1, 72, -13888888888888888888888888888888889, 36⟩)],
    -- fr11, 2076-2084
    [(0, ⟨191, 504, 37896825396825396825396825396825397, 35⟩),
     (1, ⟨2509, 2520, 99563492063492063492063492063492063, 35⟩),
     (2, ⟨-1271, 2520, -50436507936507936507936507936507937, 35⟩),
     (3, ⟨619, 2520, 24563492063492063492063492063492063, 35⟩),
     (4, ⟨-221, 2520, -87698412698412698412698412698412698, 36⟩),
     (5, ⟨7, 360, 19444444444444444444444444444444444, 36⟩),
     (6, ⟨-1, 504, -19841269841269841269841269841269841, 37⟩),
     (-1, ⟨-25, 504, -49603174603174603174603174603174603, 36⟩),
     (-2, ⟨1, 252, 39682539682539682539682539682539683, 37⟩)],
    -- fr12, 2085-2093
    [(0, ⟨275, 504, 54563492063492063492063492063492063, 35⟩),
     (1, ⟨1879, 2520, 74563492063492063492063492063492063, 35⟩),
     (2, ⟨-641, 2520, -25436507936507936507936507936507937, 35⟩),
     (3, ⟨199, 2520, 78968253968253968253968253968253968, 36⟩),
     (4, ⟨-41, 2520, -1626984126984126984126984126984127, 35⟩),
     (5, ⟨1, 630, 15873015873015873015873015873015873, 37⟩),
     (-1, ⟨-61, 504, -12103174603174603174603174603174603, 35⟩),
     (-2, ⟨11, 504, 21825396825396825396825396825396825, 36⟩),
     (-3, ⟨-1, 504, -19841269841269841269841269841269841, 37⟩)],
    -- fr13, 2094-2102
    [(0, ⟨1879, 2520, 74563492063492063492063492063492063, 35⟩),
     (1, ⟨275, 504, 54563492063492063492063492063492063, 35⟩),
     (2, ⟨-61, 504, -12103174603174603174603174603174603, 35⟩),
     (3, ⟨11, 504, 21825396825396825396825396825396825, 36⟩),
     (4, ⟨-1, 504, -19841269841269841269841269841269841, 37⟩),
     (-1, ⟨-641, 2520, -25436507936507936507936507936507937, 35⟩),
     (-2, ⟨199, 2520, 78968253968253968253968253968253968, 36⟩),
     (-3, ⟨-41, 2520, -1626984126984126984126984126984127, 35⟩),
     (-4, ⟨1, 630, 15873015873015873015873015873015873, 37⟩)],
    -- fr14, 2103-2111
    [(0, ⟨2509, 2520, 99563492063492063492063492063492063, 35⟩),
     (1, ⟨191, 504, 37896825396825396825396825396825397, 35⟩),
     (2, ⟨-25, 504, -49603174603174603174603174603174603, 36⟩),
     (3, ⟨1, 252, 39682539682539682539682539682539683, 37⟩),
     (-1, ⟨-1271, 2520, -50436507936507936507936507936507937, 35⟩),
     (-2, ⟨619, 2520, 24563492063492063492063492063492063, 35⟩),
     (-3, ⟨-221, 2520, -87698412698412698412698412698412698, 36⟩),
     (-4, ⟨7, 360, 19444444444444444444444444444444444, 36⟩),
     (-5, ⟨-1, 504, -19841269841269841269841269841269841, 37⟩)],
    -- fr15, 2112-2120
    [(0, ⟨3349, 2520, 1328968253968253968253968253968254, 33⟩),
     (1, ⟨17, 72, 23611111111111111111111111111111111, 35⟩),
     (2, ⟨-1, 72, -13888888888888888888888888888888889, 36⟩),
     (-1, ⟨-2531, 2520, -10043650793650793650793650793650794, 34⟩),
     (-2, ⟨1879, 2520, 74563492063492063492063492063492063, 35⟩),
     (-3, ⟨-1061, 2520, -42103174603174603174603174603174603, 35⟩),
     (-4, ⟨409, 2520, 1623015873015873015873015873015873, 34⟩),
     (-5, ⟨-19, 504, -37698412698412698412698412698412698, 36⟩),
     (-6, ⟨1, 252, 39682539682539682539682539682539683, 37⟩)],
    -- fr16, 2121-2129
    [(0, ⟨4609, 2520, 1828968253968253968253968253968254, 33⟩),
     (1, ⟨1, 9, 11111111111111111111111111111111111, 35⟩),
     (-1, ⟨-5471, 2520, -2171031746031746031746031746031746, 33⟩),
     (-2, ⟨6289, 2520, 24956349206349206349206349206349206, 34⟩),
     (-3, ⟨-5471, 2520, -2171031746031746031746031746031746, 33⟩),
     (-4, ⟨3349, 2520, 1328968253968253968253968253968254, 33⟩),
     (-5, ⟨-271, 504, -5376984126984126984126984126984127, 34⟩),
     (-6, ⟨65, 504, 12896825396825396825396825396825397, 35⟩),
     (-7, ⟨-1, 72, -13888888888888888888888888888888889, 36⟩)],
    -- fr17, 2130-2138
    [(0, ⟨7129, 2520, 2828968253968253968253968253968254, 33⟩),
     (-1, ⟨-15551, 2520, -6171031746031746031746031746031746, 33⟩),
     (-2, ⟨29809, 2520, 11828968253968253968253968253968254, 33⟩),
     (-3, ⟨-40751, 2520, -16171031746031746031746031746031746, 33⟩),
     (-4, ⟨38629, 2520, 15328968253968253968253968253968254, 33⟩),
     (-5, ⟨-4975, 504, -9871031746031746031746031746031746, 33⟩),
     (-6, ⟨2081, 504, 4128968253968253968253968253968254, 33⟩),
     (-7, ⟨-73, 72, -10138888888888888888888888888888889, 34⟩),
     (-8, ⟨1, 9, 11111111111111111111111111111111111, 35⟩)]]

/-! ### What the kernels compute -/

/-- The value of a literal. -/
def Coef.val (K : Type*) [Field K] (c : Coef) : K := (c.num : K) / (c.den : K)

variable {K : Type*} [Field K]

namespace WenoTable

/-- `sigma<r>` at cell `i`. -/
def sigmaAt (T : WenoTable) (q : Int → K) (i : Int) (r : Nat) : K :=
  ((T.sigma.getD r []).map fun e => e.2.2.val K * q (i + e.1) * q (i + e.2.1)).sum

/-- `fr<r>` at cell `i`. -/
def frAt (T : WenoTable) (q : Int → K) (i : Int) (r : Nat) : K :=
  ((T.fr.getD r []).map fun e => e.2.val K * q (i + e.1)).sum

/-- `omega<r>` at cell `i`. -/
def omegaAt (T : WenoTable) (eps : K) (q : Int → K) (i : Int) (r : Nat) : K :=
  let e := T.omega.getD r (⟨0, 0, 0, 0⟩, 0)
  e.1.val K / (eps + T.sigmaAt q i e.2) ^ 2

/-- `fs0`, the value at the left edge of cell `i`, which becomes `ql(m,i)`. -/
def left (T : WenoTable) (eps : K) (q : Int → K) (i : Int) : K :=
  (∑ r ∈ Finset.range T.k, T.frAt q i r * T.omegaAt eps q i r) / ∑ r ∈ Finset.range T.k, T.omegaAt eps q i r

/-- `fs1`, the value at the right edge of cell `i`, which becomes `qr(m,i)`. -/
def right (T : WenoTable) (eps : K) (q : Int → K) (i : Int) : K :=
  (∑ r ∈ Finset.range T.k, T.frAt q i (T.k + r) * T.omegaAt eps q i (T.k + r)) / ∑ r ∈ Finset.range T.k, T.omegaAt eps q i (T.k + r)

end WenoTable

/-- The kernel that `weno_comp` calls for a value of `weno_order`; `none` is its `stop`, reconstruct.f90:108-127. -/
def wenoComp (order : Int) : Option WenoTable :=
  if order = 5 then some weno5Table
  else if order = 7 then some weno7Table
  else if order = 9 then some weno9Table
  else if order = 11 then some weno11Table
  else if order = 13 then some weno13Table
  else if order = 15 then some weno15Table
  else if order = 17 then some weno17Table
  else none

/-- `ql(m,i)` and `qr(m,i)` after a kernel, whose loop runs over `num_ghost .. maxnx+num_ghost+1`; other entries keep the contents of the
work arrays. -/
def WenoTable.ql (T : WenoTable) (eps : K) (g maxnx : Int) (q oldl : Int → K) (i : Int) : K :=
  if g ≤ i ∧ i ≤ maxnx + g + 1 then T.left eps q i else oldl i
def WenoTable.qr (T : WenoTable) (eps : K) (g maxnx : Int) (q oldr : Int → K) (i : Int) : K :=
  if g ≤ i ∧ i ≤ maxnx + g + 1 then T.right eps q i else oldr i

end PyClaw
