import Mathlib.Algebra.Field.Basic
import Verif.Tactics

/-!
# Hermite basis functions and their tensor products

`singularity-eos/base/hermite.hpp`.  The C code is over `double`; here over any field.
-/

namespace Verif.Hermite

variable {K : Type*} [Field K]

/-- `hermite.hpp:25-27` -/
def psi0 (z : K) : K := z * z * z * (z * (-6 * z + 15) - 10) + 1
/-- `hermite.hpp:28-30` -/
def dpsi0 (z : K) : K := z * z * (z * (-30 * z + 60) - 30)
/-- `hermite.hpp:31-33` -/
def ddpsi0 (z : K) : K := z * (z * (-120 * z + 180) - 60)

/-- `hermite.hpp:36-38` -/
def psi1 (z : K) : K := z * (z * z * (z * (-3 * z + 8) - 6) + 1)
/-- `hermite.hpp:39-41` -/
def dpsi1 (z : K) : K := z * z * (z * (-15 * z + 32) - 18) + 1
/-- `hermite.hpp:42-44` -/
def ddpsi1 (z : K) : K := z * (z * (-60 * z + 96) - 36)

/-- `hermite.hpp:47-49` -/
def psi2 (z : K) : K := 1 / 2 * z * z * (z * (z * (-z + 3) - 3) + 1)
/-- `hermite.hpp:50-52` -/
def dpsi2 (z : K) : K := 1 / 2 * z * (z * (z * (-5 * z + 12) - 9) + 2)
/-- `hermite.hpp:53-55` -/
def ddpsi2 (z : K) : K := 1 / 2 * (z * (z * (-20 * z + 36) - 18) + 2)

/-- `hermite.hpp:58-75`: the biquintic combination. -/
def h5 (fi : Nat → K) (w0t w1t w2t w0mt w1mt w2mt w0d w1d w2d w0md w1md w2md : K) : K :=
  fi 0 * w0d * w0t + fi 1 * w0md * w0t + fi 2 * w0d * w0mt +
  fi 3 * w0md * w0mt + fi 4 * w0d * w1t + fi 5 * w0md * w1t +
  fi 6 * w0d * w1mt + fi 7 * w0md * w1mt + fi 8 * w0d * w2t +
  fi 9 * w0md * w2t + fi 10 * w0d * w2mt + fi 11 * w0md * w2mt +
  fi 12 * w1d * w0t + fi 13 * w1md * w0t + fi 14 * w1d * w0mt +
  fi 15 * w1md * w0mt + fi 16 * w2d * w0t + fi 17 * w2md * w0t +
  fi 18 * w2d * w0mt + fi 19 * w2md * w0mt + fi 20 * w1d * w1t +
  fi 21 * w1md * w1t + fi 22 * w1d * w1mt + fi 23 * w1md * w1mt +
  fi 24 * w2d * w1t + fi 25 * w2md * w1t + fi 26 * w2d * w1mt +
  fi 27 * w2md * w1mt + fi 28 * w1d * w2t + fi 29 * w1md * w2t +
  fi 30 * w1d * w2mt + fi 31 * w1md * w2mt + fi 32 * w2d * w2t +
  fi 33 * w2md * w2t + fi 34 * w2d * w2mt + fi 35 * w2md * w2mt

/-- `hermite.hpp:77` -/
def xpsi0 (z : K) : K := z * z * (2 * z - 3) + 1
/-- `hermite.hpp:78` -/
def xdpsi0 (z : K) : K := z * (6 * z - 6)
/-- `hermite.hpp:81` -/
def xpsi1 (z : K) : K := z * (z * (z - 2) + 1)
/-- `hermite.hpp:83` -/
def xdpsi1 (z : K) : K := z * (3 * z - 4) + 1

/-- `hermite.hpp:86-95`: the bicubic combination. -/
def h3 (fi : Nat → K) (w0t w1t w0mt w1mt w0d w1d w0md w1md : K) : K :=
  fi 0 * w0d * w0t + fi 1 * w0md * w0t + fi 2 * w0d * w0mt +
  fi 3 * w0md * w0mt + fi 4 * w0d * w1t + fi 5 * w0md * w1t +
  fi 6 * w0d * w1mt + fi 7 * w0md * w1mt + fi 8 * w1d * w0t +
  fi 9 * w1md * w0t + fi 10 * w1d * w0mt + fi 11 * w1md * w0mt +
  fi 12 * w1d * w1t + fi 13 * w1md * w1t + fi 14 * w1d * w1mt +
  fi 15 * w1md * w1mt

end Verif.Hermite
