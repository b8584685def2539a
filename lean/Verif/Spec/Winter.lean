import Verif.Spec.Fhc
/-!
# Specification of the melting-layer detection and of the winter classifier's combination

Plain per-gate rules, and the median of a list of real numbers.
-/
namespace Csu.WinterSpec
open Csu Tables FhcSpec
noncomputable section

/-- A gate of a winter volume: all fields are real numbers, and `rho` may be masked. -/
structure Gate where
  dz : ℝ
  zdr : ℝ
  kdp : ℝ
  rho : ℝ
  T : ℝ
  sn : ℝ
  height : ℝ
  masked : Bool

/-- Membership of a gate in species `c` of the tables of `band`, variable by variable. -/
def mu (band : String) (s : Season) (k : Key) (c : Nat) (x : ℝ) : ℝ := (bell band s k c).mu x

/-- Score of `other` (0) or `wet snow` (1): weights 4, 7 and 14 for reflectivity, differential reflectivity and
correlation coefficient. -/
def meltScore (band : String) (g : Gate) (c : Nat) : ℝ :=
  (4 * mu band .ml .DZ c g.dz + 7 * mu band .ml .DR c g.zdr + 14 * mu band .ml .RH c g.rho) / 25

/-- Score of the warm species, `frozen` (4) and `rain` (5): weights 10 and 20 for reflectivity and temperature. -/
def warmScore (band : String) (g : Gate) (c : Nat) : ℝ :=
  (10 * mu band .winter .DZ c g.dz + 20 * mu band .winter .T c g.T) / 30

/-- Score of the cold species, ice crystals (0), plates (1), dendrites (2) and aggregates (3): weights 5, 9 and 11 (for
aggregates 5, 10 and 10) for reflectivity, differential reflectivity and differential phase. -/
def coldScore (band : String) (g : Gate) (c : Nat) : ℝ :=
  if c < 3 then (5 * mu band .winter .DZ c g.dz + 9 * mu band .winter .DR c g.zdr + 11 * mu band .winter .KD c g.kdp) / 25
  else (5 * mu band .winter .DZ c g.dz + 10 * mu band .winter .DR c g.zdr + 10 * mu band .winter .KD c g.kdp) / 25

/-- Melting-detector code of a gate: -1 if the correlation coefficient is unusable, else 0 if the signal is weak, else 1
(other) unless wet snow scores strictly better, then 2. -/
def detector (rhoUnusable weakSignal wetSnowBetter : Bool) : Int :=
  if rhoUnusable then -1 else if weakSignal then 0 else if wetSnowBetter then 2 else 1

/-- Winter category of a gate, from the detector code, the level (0 warm, 1 melting, 2 cold), the winner `w` of the two
warm species and the winner `c` of the four cold species: wet snow is 5, warm species are 6 and 7, cold species 1-4. -/
def category (grid : Bool) (code : Int) (level : Nat) (w c : Nat) : Int :=
  if code = 2 then 5
  else if code = 1 then
    (if level = 0 then 5 + w else if level = 2 ∨ (level = 1 ∧ grid) then c else -1)
  else -1

/-- `m` is the median of `l`: sort the list; `m` is the mean of the element(s) in the middle. -/
def IsMedian (l : List ℝ) (m : ℝ) : Prop :=
  ∃ s : List ℝ, s.Perm l ∧ s.Pairwise (· ≤ ·) ∧
    ∃ a b, s[(s.length - 1) / 2]? = some a ∧ s[s.length / 2]? = some b ∧ m = (a + b) / 2

/-- heights of the wet-snow gates (code 2) within 1.5 of the expected height -/
def nearWetSnow (codes : List Int) (hs : List ℝ) (e : ℝ) : List ℝ :=
  (codes.zip hs).filterMap (fun p => if p.1 = 2 ∧ |p.2 - e| ≤ 1.5 then some p.2 else none)

/-- heights of all the wet-snow gates (code 2); the list may hold heights of any kind -/
def wetSnow {β : Type} (codes : List Int) (hs : List β) : List β :=
  (codes.zip hs).filterMap (fun p => if p.1 = 2 then some p.2 else none)

/-- `m` is the melting height of an RHI or grid: the median of the wet-snow heights near the expected height `e` if there
are more than 10, else `e` -/
def MeltHeight (codes : List Int) (hs : List ℝ) (e m : ℝ) : Prop :=
  (10 < (nearWetSnow codes hs e).length → IsMedian (nearWetSnow codes hs e) m) ∧
    ((nearWetSnow codes hs e).length ≤ 10 → m = e)

/-- the detector code of a gate, for thresholds `minRH` and `snThresh` -/
def code (band : String) (minRH snThresh : ℝ) (g : Gate) : Int :=
  open Classical in
  detector (g.masked || decide (g.rho ≤ minRH)) (decide (g.sn < snThresh))
    (decide (meltScore band g 0 < meltScore band g 1))

/-- level of a gate at height `h` when the melting height is `m` -/
def level (h m : ℝ) : Nat := if h < m then 0 else if m < h then 2 else 1

/-- A gate of a sweep: azimuth, detector code, reflectivity and height. -/
structure PpiGate where
  az : ℝ
  code : Int
  dz : ℝ
  height : ℝ

/-- lower edge of sector `i` when the circle is divided at `n` equally spaced azimuths from 0 to 360 -/
def edge (n i : Nat) : ℝ := i * (360 / ((n : ℝ) - 1))

/-- is the gate in sector `i`? -/
def InSector (n i : Nat) (g : PpiGate) : Prop := edge n i ≤ g.az ∧ g.az < edge n (i + 1)

open Classical in
/-- the gates of sector `i` -/
def sectorGates (n i : Nat) (gs : List PpiGate) : List PpiGate := gs.filter (fun g => decide (InSector n i g))

/-- the wet-snow gates of sector `i` -/
def sectorWet (n i : Nat) (gs : List PpiGate) : List PpiGate :=
  (sectorGates n i gs).filter (fun g => g.code == 2)

/-- `part` as a percentage of `whole` -/
def percent (part whole : ℝ) : ℝ := part / whole * 100

/-- mean of a list -/
def mean (l : List ℝ) : ℝ := l.sum / l.length

end
end Csu.WinterSpec
