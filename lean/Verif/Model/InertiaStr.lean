import Verif.Model.Report

/-!
# Model of the texts shown for an inertia: `str(inertia)`, and what `--plain-inertia` and `--shell-inertia` print
-/

namespace MM.InertiaText

open MM MM.Io MM.Report

/-- The attributes of a `RigidBodyInertia` (inertia.py:42-58). Numbers are rationals: `-0.0`, infinities and NaN are not
modelled. -/
structure Data where
  mass : ℚ
  cog : V3 ℚ
  point : V3 ℚ
  mat : M3 ℚ

/-- `'{:< 15.6E}'.format(x)` (inertia.py:199-202): a blank in place of the sign of a non negative number, blanks on the right. -/
def cell (x : ℚ) : Str := padR 15 (number .E 6 x)

/-- `'{v[0]:{fformat}}{v[1]:{fformat}}{v[2]:{fformat}}\n'` (inertia.py:207-221). -/
def cells (v : V3 ℚ) : Str := cell v.x ++ (cell v.y ++ (cell v.z ++ nl))

/-- `RigidBodyInertia.__str__` (inertia.py:198-223). -/
def str (i : Data) : Str :=
  nl ++ ("Pincipal inertial parameters:".toList ++ (nl ++
  ("\tMass: ".toList ++ (cell i.mass ++ (" kg".toList ++ (nl ++
  ("\tCOG:  ".toList ++ (cells i.cog ++
  ("\tInertia matrix expressed at: ".toList ++ (cells i.point ++
  ("\t\t".toList ++ (cells i.mat.r0 ++
  ("\t\t".toList ++ (cells i.mat.r1 ++
  ("\t\t".toList ++ cells i.mat.r2)))))))))))))))

/-- `'%.3E\t%.3E\t%.3E' % (v[0], v[1], v[2])`, with the end of line of `print` (cli.py:865-869). -/
def sci3 (v : V3 ℚ) : Str := sciStr 3 v.x ++ ('\t' :: (sciStr 3 v.y ++ ('\t' :: (sciStr 3 v.z ++ nl))))

/-- What `--plain-inertia` and `--shell-inertia` print after the title (cli.py:860-869 and 886-895, the same lines). -/
def body (i : Data) : Str :=
  "\tMass = ".toList ++ (fixedStr 3 (i.mass / 1000) ++ (" tons".toList ++ (nl ++
  ("\tCOG (m):".toList ++ (nl ++
  ("\t\txg = ".toList ++ (fixedStr 3 i.cog.x ++ (nl ++
  ("\t\tyg = ".toList ++ (fixedStr 3 i.cog.y ++ (nl ++
  ("\t\tzg = ".toList ++ (fixedStr 3 i.cog.z ++ (nl ++
  ("\tInertia matrix (SI):".toList ++ (nl ++
  ("\t\t".toList ++ (sci3 i.mat.r0 ++
  ("\t\t".toList ++ (sci3 i.mat.r1 ++
  ("\t\t".toList ++ (sci3 i.mat.r2 ++
  ("\tExpressed at point : \t\t".toList ++ sci3 i.point)))))))))))))))))))))))

/-- What `--plain-inertia` prints (cli.py:857-869). -/
def plainText (rho : ℚ) (i : Data) : Str :=
  nl ++ ("Inertial parameters for a uniform distribution of a medium of density ".toList ++ (fixedStr 1 rho ++
    (" kg/m**3 in the mesh:".toList ++ (nl ++ (nl ++ body i)))))

/-- What `--shell-inertia` prints (cli.py:883-895). -/
def shellText (rho thickness : ℚ) (i : Data) : Str :=
  nl ++ ("Inertial parameters for a shell distribution of a medium of density ".toList ++ (fixedStr 1 rho ++
    (" kg/m**3 and a thickness of ".toList ++ (fixedStr 3 thickness ++ (" m over the mesh:".toList ++ (nl ++ (nl ++ body i)))))))

end MM.InertiaText
