import Verif.Basic
/-! # Index ranges and domain decomposition

Models `libmpdata++/blitz.hpp` (`rng_t` = `blitz::Range` with unit stride),
`libmpdata++/formulae/arakawa_c.hpp` and
`libmpdata++/formulae/domain_decomposition.hpp`. -/

namespace Mpdata

/-- `rng_t` (blitz.hpp:31-40, `typedef blitz::Range rng_t`): an inclusive index
range with unit stride. An empty range has `last < first`. -/
structure Rng where
  first : Int
  last  : Int
deriving DecidableEq, Repr

namespace Rng

/-- index membership (blitz `Range` semantics: inclusive at both ends). -/
def Mem (r : Rng) (i : Int) : Prop := r.first ≤ i ∧ i ≤ r.last

instance (r : Rng) (i : Int) : Decidable (r.Mem i) := by unfold Mem; infer_instance

/-- `rng_t::length()` (blitz `Range::length`). -/
def length (r : Rng) : Int := r.last - r.first + 1

/-- `r + n` for an integer `n` (blitz range shift). -/
def shift (r : Rng) (n : Int) : Rng := ⟨r.first + n, r.last + n⟩

/-- `r^n` for integer `n` (arakawa_c.hpp:42-50): the range extended by `n` at both ends. -/
def ext (r : Rng) (n : Int) : Rng := ⟨r.first - n, r.last + n⟩

/-- `r^h` (arakawa_c.hpp:19-50): `(r-h).first`, `(r+h).last` with `i-h = i-1`, `i+h = i`,
i.e. the faces around the cells of `r` (face `i+1/2` is stored at index `i`). -/
def extH (r : Rng) : Rng := ⟨r.first - 1, r.last⟩

end Rng

/-- `domain_decomposition::detail::min` (formulae/domain_decomposition.hpp:18-21):
`rank * span / size`, C++ integer division (truncation). Simplification: no 32-bit overflow. -/
def slabMin (span rank size : Int) : Int := Int.tdiv (rank * span) size

/-- `domain_decomposition::detail::max` (formulae/domain_decomposition.hpp:23-26). -/
def slabMax (span rank size : Int) : Int := slabMin span (rank + 1) size - 1

/-- `domain_decomposition::slab` (formulae/domain_decomposition.hpp:30-39). -/
def slab (span : Rng) (rank size : Int) : Rng :=
  ⟨span.first + slabMin span.length rank size, span.first + slabMax span.length rank size⟩

/-- `sharedmem_common` constructor check (concurr/detail/sharedmem.hpp:106-107):
throws (`none`) if there are more subdomains than grid points in dimension 0. -/
def sharedmemCtor (gridSize0 size : Int) : Option Unit :=
  if size > gridSize0 then none else some ()

/-- `shmem_decomp_dim` (concurr/detail/sharedmem.hpp:91): the dimension along which the threads of a process divide the domain -/
def shmemDecompDim (nDims : Nat) : Nat := if nDims < 3 then 0 else 1

/-- the index range of dimension `d` handled by MPI process `prank` of `psize` (concurr/detail/sharedmem.hpp:93-103) for a global grid `grid` -/
def processRange (grid : Nat → Int) (d : Nat) (prank psize : Int) : Rng :=
  slab ⟨0, grid d - 1⟩ (if d = 0 then prank else 0) (if d = 0 then psize else 1)

/-- the range in the decomposed dimension given to thread `rank` of `size` (concurr/detail/concurr_common.hpp:278 in 1-D, 317 in 2-D, 365 in 3-D) -/
def threadRange (nDims : Nat) (grid : Nat → Int) (prank psize rank size : Int) : Rng :=
  slab (processRange grid (shmemDecompDim nDims) prank psize) rank size

end Mpdata
