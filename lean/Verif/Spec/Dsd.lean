import Verif.PyFloat
/-!
# Specification of the drop size retrievals, gate by gate

Plain formulas of Bringi et al. (2004, 2009, 2013) as the module documents them; nothing of the model is used.
-/
namespace Csu.DsdSpec
open Csu PyFloat
variable {α : Type} [PyFloat α]

/-- the retrieved triple of one gate -/
structure Gate (α : Type) where
  d0 : α
  nw : α
  mu : α

/-- linear units -/
def lin (d : α) : α := 10 ^ (d / 10)

/-- Bringi et al. (2013), S band -/
def s2013d0 (d z : α) : α :=
  if z >=. 1 then 0.0536 * z ^ (3 : α) + -0.1971 * z ^ (2 : α) + 0.6261 * z ^ (1 : α) + 1.0815
  else if z <. 1 then
    0.0424 * z ^ (4 : α) + -0.4571 * z ^ (3 : α) + 0.6125 * z ^ (2 : α) + 0.457 * z ^ (1 : α) + 0.8808
  else 0 * d

/-- Bringi et al. (2009), C band -/
def c2009d0 (d z : α) : α :=
  if z >. 1.25 then 0.0355 * z ^ (3 : α) + -0.3021 * z ^ (2 : α) + 1.0556 * z ^ (1 : α) + 0.6844
  else if (z >=. -0.5) && (z <=. 1.25) then
    0.0203 * z ^ (4 : α) + -0.1488 * z ^ (3 : α) + 0.2209 * z ^ (2 : α) + 0.5571 * z ^ (1 : α) + 0.801
  else 0 * d

/-- full 2013 gate -/
def s2013 (d z : α) : Gate α := ⟨s2013d0 d z, 19.76 * lin d / (1 * s2013d0 d z ^ (7.46 : α)), 0 * d + 3⟩
/-- full 2009 gate -/
def c2009 (d z : α) : Gate α := ⟨c2009d0 d z, lin d / (0.056 * c2009d0 d z ^ (7.319 : α)), 0 * d + 3⟩

/-- which of the four 2004 methods applies (0: none) -/
def method2004 (d z k : α) : Nat :=
  if (z >=. -0.5) && (z <. 0.2) && (k <. 0.3) then 4
  else if (z >=. 0.2) && (z <. 0.5) && (k <. 0.3) then 3
  else if (z >=. 0.5) && (k <. 0.3) then 2
  else if (d >=. 35) && (z >=. 0.2) && (k >=. 0.3) then 1
  else 0

/-- Eq. A.15 -/
def d0m2 (z : α) : α := 1.81 * z ^ (0.486 : α)
/-- Eq. A.20 -/
def d0m4 (d z : α) : α := 0.6096 * lin d ^ (0.0516 : α) * lin z ^ (3.111 : α)
/-- Eq. A.18 as coded -/
def d0m3 (d z : α) : α := (z - 0.2) / 3 * d0m2 z + (0.5 - z) / 3 * d0m4 d z
/-- Eqs. A.17, A.19, A.21 -/
def nwOf (d d0 : α) : α := 21 * lin d / (1 * d0 ^ (7.3529 : α))

/-- Eq. A.1 -/
def beta (d z k : α) : α := 2.08 * lin d ^ (-0.365 : α) * k ^ (0.38 : α) * lin z ^ (0.965 : α)
/-- Eqs. A.2-A.5 -/
def d0m1 (d z k : α) : α := 0.56 * lin d ^ (0.064 : α) * lin z ^ (0.024 * beta d z k ^ (-1.42 : α))
/-- Eqs. A.6-A.9 -/
def nwm1 (d z k : α) : α :=
  10 ^ (3.29 * lin d ^ (0.058 : α) * lin z ^ (-0.023 * beta d z k ^ (-1.389 : α)))
/-- Eqs. A.10-A.14 -/
def mum1 (d z k : α) : α :=
  203 * beta d z k ^ (1.89 : α) * (d0m1 d z k ^ (2.23 * beta d z k ^ (0.0388 : α)) / (lin z - 1)) -
    3.16 * beta d z k ^ (-0.0463 : α) * lin z ^ (0.374 * beta d z k ^ (-0.355 : α))

/-- the 2004 gate of each method -/
def s2004of (d z k : α) (m : Nat) : Gate α :=
  if m = 1 then ⟨d0m1 d z k, nwm1 d z k, mum1 d z k⟩
  else if m = 2 then ⟨d0m2 z, nwOf d (d0m2 z), 0 * lin d + 3⟩
  else if m = 3 then ⟨d0m3 d z, nwOf d (d0m3 d z), 0 * lin d + 3⟩
  else if m = 4 then ⟨d0m4 d z, nwOf d (d0m4 d z), 0 * lin d + 3⟩
  else ⟨0 * d, 0 * d, 0 * d⟩

/-- Bringi et al. (2004), S band -/
def s2004 (d z k : α) : Gate α := s2004of d z k (method2004 d z k)

/-- the retrieval selected by `band` and `method` -/
def gate (band method : String) (d z k : α) : Gate α :=
  if band = "S" then (if method = "2013" then s2013 d z else s2004 d z k) else c2009 d z

end Csu.DsdSpec
