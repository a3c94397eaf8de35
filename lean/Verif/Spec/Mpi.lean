import Verif.Basic
/-! # Specification: the halo of a serial cyclic run
One array over the whole domain `0 .. N-1`. The two end points of a cyclic domain are the same point, so the period is `N - 1`. -/
namespace Mpdata.Mpi

/-- value at index `x` of a point field `g` known on `0 .. N-1`, continued periodically by up to one period on each side -/
def periodicS {W : Type} (N : Nat) (g : Int → W) (x : Int) : W :=
  if x < 0 then g (x + ((N : Int) - 1)) else if (N : Int) - 1 < x then g (x - ((N : Int) - 1)) else g x

/-- value at face `x` (between points `x` and `x+1`) of a face field `g` known on the faces `0 .. N-2`, continued periodically -/
def periodicV {W : Type} (N : Nat) (g : Int → W) (x : Int) : W :=
  if x < 0 then g (x + ((N : Int) - 1)) else if (N : Int) - 2 < x then g (x - ((N : Int) - 1)) else g x

end Mpdata.Mpi
