import Verif.Model.Convert
/-! Model of src/filter/median.rs (usize indices are Nat; their arithmetic stays far below 2^64 and is
done without overflow checks, except the subtractions, which are checked). -/
namespace Imgproc
open FloatOps

/-- src/filter/median.rs:73-80 `PartialHistograms` -/
structure PartialHistograms where
  data : List (List Int)
  nCols : Nat
  nHalf : Nat
  radius : Nat
  size : Nat
deriving DecidableEq, Repr

/-- `data[n][v] += d` (i32), as in src/filter/median.rs:107-119 -/
def histAdd (P : Profile) (data : List (List Int)) (n v : Nat) (d : Int) : Res (List (List Int)) := do
  let row ← idx data n
  let c ← idx row v
  let c' ← i32Add P c d
  let row' ← setIdx row v c'
  setIdx data n row'

/-- `p_in[i][channel_index] as usize`, src/filter/median.rs:107-119 -/
def rowVal (pIn : List (List UInt8)) (i ch : Nat) : Res Nat := do
  let p ← idx pIn i
  let c ← idx p ch
  .ok c.toNat

namespace PartialHistograms
/-- src/filter/median.rs:83-94 `new` -/
def new (radius nCols : Nat) : PartialHistograms :=
  { data := List.replicate nCols (List.replicate 256 0), nCols := nCols, nHalf := nCols / 2,
    radius := radius, size := 2 * radius + 1 }

/-- src/filter/median.rs:97-122 `update` -/
def update (P : Profile) (h : PartialHistograms) (pIn : List (List UInt8)) (ch : Nat) (add : Bool) :
    Res PartialHistograms := do
  let inc : Int := if add then 1 else -1
  let data ← forRange 0 h.nHalf h.data fun n data => do
    let t ← usizeSub P h.nCols n
    let nUpper ← usizeSub P t 1
    forRange n h.nHalf data fun i data => do
      let v ← rowVal pIn i ch
      let data ← histAdd P data n v inc
      let v ← rowVal pIn (i + h.size) ch
      let data ← histAdd P data n v (-inc)
      let t ← usizeSub P (h.nCols + 2 * h.radius) i
      let iUpper ← usizeSub P t 1
      let iLower ← usizeSub P iUpper h.size
      let v ← rowVal pIn iLower ch
      let data ← histAdd P data nUpper v (-inc)
      let v ← rowVal pIn iUpper ch
      histAdd P data nUpper v inc
  let data ← forRange h.nHalf (h.nHalf + h.size) data fun i data => do
    let v ← rowVal pIn i ch
    histAdd P data h.nHalf v inc
  .ok { h with data := data }

/-- src/filter/median.rs:126-133 `get_count` -/
def getCount (P : Profile) (h : PartialHistograms) (key index : Nat) : Res Int := do
  let c ← idx h.data h.nHalf
  let count ← idx c key
  if index ≠ h.nHalf then
    let d ← idx h.data index
    let v ← idx d key
    i32Add P count v
  else .ok count
end PartialHistograms

/-- src/filter/median.rs:155-159 `MedianHist` -/
structure MedianHist where
  data : PartialHistograms
  sums : List Int
  pivots : List UInt8
deriving DecidableEq, Repr

namespace MedianHist
/-- src/filter/median.rs:162-168 `new` -/
def new (radius nCols : Nat) : MedianHist :=
  { data := PartialHistograms.new radius nCols, sums := List.replicate nCols 0, pivots := [] }

/-- src/filter/median.rs:182-184 `init_pivots` -/
def initPivots (h : MedianHist) : MedianHist := { h with pivots := List.replicate h.data.nCols 0 }

/-- src/filter/median.rs:186-188 `set_pivot` -/
def setPivot (h : MedianHist) (pivot : UInt8) (index : Nat) : Res MedianHist := do
  let p ← setIdx h.pivots index pivot
  .ok { h with pivots := p }

/-- src/filter/median.rs:190-192 `set_sum` -/
def setSum (h : MedianHist) (sum : Int) (index : Nat) : Res MedianHist := do
  let s ← setIdx h.sums index sum
  .ok { h with sums := s }

/-- src/filter/median.rs:194-212 `update` -/
def update (P : Profile) (h : MedianHist) (pIn : List (List UInt8)) (ch : Nat) (add : Bool) :
    Res MedianHist := do
  let d ← h.data.update P pIn ch add
  let inc : Int := if add then 1 else -1
  let sums ← if h.pivots ≠ [] then
      forRange 0 d.nCols h.sums fun n sums =>
        forRange n (n + d.size) sums fun i sums => do
          let v ← rowVal pIn i ch
          let p ← idx h.pivots n
          if v < p.toNat then
            let s ← idx sums n
            let s' ← i32Add P s inc
            setIdx sums n s'
          else .ok sums
    else .ok h.sums
  .ok { h with data := d, sums := sums }
end MedianHist

/-- The upward scan of src/filter/median.rs:276-288 and 312-322, over the remaining keys:
`Some (key, sum)` at the first key where `sum + count >= center`. -/
def scanUp (P : Profile) (h : PartialHistograms) (center : Int) (i : Nat) :
    List Nat → Int → Res (Option (Nat × Int))
  | [], _ => .ok none
  | key :: keys, sum => do
    let add ← h.getCount P key i
    let t ← i32Add P sum add
    if t ≥ center then .ok (some (key, sum))
    else
      let sum' ← i32Add P sum add
      scanUp P h center i keys sum'

/-- The downward scan of src/filter/median.rs:326-334 -/
def scanDown (P : Profile) (h : PartialHistograms) (center : Int) (i : Nat) :
    List Nat → Int → Res (Option (Nat × Int))
  | [], _ => .ok none
  | key :: keys, sum => do
    let c ← h.getCount P key i
    let sum ← i32Sub P sum c
    if sum < center then .ok (some (key, sum))
    else scanDown P h center i keys sum

/-- `lo..=255` as a list of keys -/
def keysFrom (lo : Nat) : List Nat := (List.range (256 - lo)).map (lo + ·)

/-- apply `f channel histogram` to every histogram, collecting results:
`for hist in histograms.iter_mut()` -/
def forHists {H} (hists : List H) (f : Nat → H → List UInt8 → Res (H × List UInt8)) :
    Res (List H × List UInt8) :=
  forEnum hists 0 ([], []) fun c h acc => do
    let r ← f c h acc.2
    .ok (acc.1 ++ [r.1], r.2)

/-- `add_row_med` / `remove_row_med`: src/filter/median.rs:346-356 -/
def rowMed (P : Profile) (hists : List MedianHist) (pIn : List (List UInt8)) (add : Bool) :
    Res (List MedianHist) :=
  forEnum hists 0 [] fun c h acc => do
    let h' ← h.update P pIn c add
    .ok (acc ++ [h'])

/-- src/filter/median.rs:358-362 `set_pivots_med` -/
def setPivotsMed (hists : List MedianHist) (pivots : List UInt8) (index : Nat) : Res (List MedianHist) :=
  forRange 0 pivots.length hists fun c hists => do
    let p ← idx pivots c
    let h ← idx hists c
    let h' ← h.setPivot p index
    setIdx hists c h'

/-- one row of input pixels, columns clamped: src/filter/median.rs:235-239, 258-261 -/
def inputRow (P : Profile) (input : Image UInt8) (radius nCols x : Nat) (y : Nat) : Res (List (List UInt8)) := do
  let lo ← i32Sub P (toI32 x) (toI32 radius)
  let a ← u32Add P x (usizeToU32 nCols)
  let b ← u32Add P a radius
  forRangeI lo (toI32 b) [] fun i row => do
    let wm ← i32Sub P (toI32 input.info.width) 1
    let ic ← intClamp i 0 wm
    let p ← input.getPixelUnchecked P (i32ToU32 ic) y
    .ok (row ++ [p])

/-- `let x_clamp = (x + i as u32).clamp(0, output.info().width - 1); output.set_pixel(x_clamp, y, p)`
src/filter/median.rs:291-292, 339-340, 654-655, 666-667 -/
def writeClamped (P : Profile) (output : Image UInt8) (x i y : Nat) (p : List UInt8) : Res (Image UInt8) := do
  let xi ← u32Add P x (usizeToU32 i)
  let wm ← u32Sub P output.info.width 1
  let xc ← natClamp xi 0 wm
  output.setPixel P xc y p

/-- src/filter/median.rs:251-296 `init_cols_med` -/
def initColsMed (P : Profile) (input output : Image UInt8) (hists : List MedianHist)
    (radius : Nat) (center : Int) (nCols x : Nat) : Res (Image UInt8 × List MedianHist) := do
  let hi ← i32Add P (toI32 radius) 1
  let lo ← wrapInt P I32HALF (-(toI32 radius))
  let hists ← forRangeI lo hi hists fun j hists => do
    let hm ← i32Sub P (toI32 input.info.height) 1
    -- `j.clamp` is evaluated once per pushed pixel with the same value
    let row ← (do
      let lo ← i32Sub P (toI32 x) (toI32 radius)
      let a ← u32Add P x (usizeToU32 nCols)
      let b ← u32Add P a radius
      forRangeI lo (toI32 b) [] fun i row => do
        let wm ← i32Sub P (toI32 input.info.width) 1
        let ic ← intClamp i 0 wm
        let jc ← intClamp j 0 hm
        let p ← input.getPixelUnchecked P (i32ToU32 ic) (i32ToU32 jc)
        .ok (row ++ [p]))
    rowMed P hists row true
  let hists := hists.map MedianHist.initPivots
  forRange 0 nCols (output, hists) fun i s => do
    let (hists, pOut) ← forHists s.2 fun _ h pOut => do
      let r ← scanUp P h.data center i (keysFrom 0) 0
      match r with
      | none => .ok (h, pOut)
      | some (key, sum) => do
        let h' ← h.setSum sum i
        .ok (h', pOut ++ [UInt8.ofNat key])
    let output ← writeClamped P s.1 x i 0 pOut
    let hists ← setPivotsMed hists pOut i
    .ok (output, hists)

/-- src/filter/median.rs:298-344 `process_row_med` -/
def processRowMed (P : Profile) (output : Image UInt8) (hists : List MedianHist)
    (center : Int) (nCols x y : Nat) : Res (Image UInt8 × List MedianHist) :=
  forRange 0 nCols (output, hists) fun i s => do
    let (hists, pOut) ← forHists s.2 fun _ h pOut => do
      let pivot ← idx h.pivots i
      let sum ← idx h.sums i
      if sum = center then .ok (h, pOut ++ [pivot])
      else
        let r ← if sum < center then scanUp P h.data center i (keysFrom pivot.toNat) sum
          else scanDown P h.data center i (List.range pivot.toNat).reverse sum
        match r with
        | none => .ok (h, pOut)
        | some (key, sum) => do
          let h' ← h.setSum sum i
          .ok (h', pOut ++ [UInt8.ofNat key])
    let output ← writeClamped P s.1 x i y pOut
    let hists ← setPivotsMed hists pOut i
    .ok (output, hists)

/-- row indices entering and leaving the window at output row `j`: src/filter/median.rs:232-233 -/
def rowInOut (P : Profile) (height radius j : Nat) : Res (Nat × Nat) := do
  let a ← u32Add P j radius
  let hm ← u32Sub P height 1
  let jIn ← natClamp a 0 hm
  let b ← i32Sub P (toI32 j) (toI32 radius)
  let b ← i32Sub P b 1
  let hmi ← i32Sub P (toI32 height) 1
  let jOut ← intClamp b 0 hmi
  .ok (jIn, i32ToU32 jOut)

/-- src/filter/median.rs:215-249 `process_cols_med` -/
def processColsMed (P : Profile) (input output : Image UInt8) (radius nCols x : Nat) : Res (Image UInt8) := do
  let r2 ← u32Mul P 2 radius
  let size ← u32Add P r2 1
  let s2 ← u32Mul P size size
  let c ← u32Add P (s2 / 2) 1
  let center := toI32 c
  let hists := List.replicate input.info.channels (MedianHist.new radius nCols)
  let s ← initColsMed P input output hists radius center nCols x
  let s ← forRange 1 input.info.height s fun j s => do
    let (jIn, jOut) ← rowInOut P input.info.height radius j
    let rowIn ← inputRow P input radius nCols x jIn
    let rowOut ← inputRow P input radius nCols x jOut
    let hists ← rowMed P s.2 rowIn true
    let hists ← rowMed P hists rowOut false
    processRowMed P s.1 hists center nCols x j
  .ok s.1

/-- `n_cols` of src/filter/median.rs:12-15 and 38-41 -/
def medianNCols (F : Type) [FloatOps F] (radius : Nat) : Nat :=
  let n := toUsize (FloatOps.floor (num 4 *. FloatOps.pow (ofNat (F := F) radius) (num 2 /. num 3)))
  if n % 2 = 0 then n + 1 else n

/-- src/filter/median.rs:11-24 `median_filter` -/
def medianFilter (F : Type) [FloatOps F] (P : Profile) (input : Image UInt8) (radius : Nat) :
    Res (Image UInt8) := do
  let nCols := medianNCols F radius
  let output ← Image.blank P u8Num input.info
  forStep 0 output.info.width nCols output fun x output =>
    processColsMed P input output radius nCols x

/-! ### alpha-trimmed mean -/

/-- `binary_search` of std on a byte slice (ascending) or with `Reverse` keys: an oracle returning
`Ok position` or `Err insertion point`; std leaves the choice among equal elements, and everything on
unsorted input, unspecified. -/
structure BinSearch where
  asc : List UInt8 → UInt8 → Except Nat Nat
  desc : List UInt8 → UInt8 → Except Nat Nat

/-- src/filter/median.rs:369-379 `MeanHist` -/
structure MeanHist (F : Type) where
  data : PartialHistograms
  sums : List Int
  lower : List (List UInt8)
  upper : List (List UInt8)
  trim : Nat
  len : F

/-- `Vec::remove(i)` -/
def vecRemove {α} (l : List α) (i : Nat) : Res (List α) :=
  if i < l.length then .ok (l.eraseIdx i) else panic .index

/-- `Vec::insert(i, v)` -/
def vecInsert {α} (l : List α) (i : Nat) (v : α) : Res (List α) :=
  if i ≤ l.length then .ok (l.insertIdx i v) else panic .index

namespace MeanHist
variable {F : Type} [FloatOps F]

/-- src/filter/median.rs:382-394 `new` -/
def new (P : Profile) (radius nCols alpha : Nat) : Res (MeanHist F) := do
  let size := 2 * radius + 1
  let l ← usizeSub P (size * size) alpha
  .ok { data := PartialHistograms.new radius nCols, sums := [], lower := [], upper := [],
        trim := alpha / 2, len := ofNat l }

/-- src/filter/median.rs:400-404 `init` -/
def init (h : MeanHist F) : MeanHist F :=
  { h with sums := List.replicate h.data.nCols 0, lower := List.replicate h.data.nCols [],
           upper := List.replicate h.data.nCols [] }

/-- src/filter/median.rs:526-528 `lower(index)` -/
def lowerAt (P : Profile) (h : MeanHist F) (index : Nat) : Res UInt8 := do
  let l ← idx h.lower index
  let k ← usizeSub P h.trim 1
  idx l k

/-- src/filter/median.rs:522-524 `upper(index)` -/
def upperAt (P : Profile) (h : MeanHist F) (index : Nat) : Res UInt8 := do
  let l ← idx h.upper index
  let k ← usizeSub P h.trim 1
  idx l k

/-- `self.sums[n] += v` -/
def addSum (P : Profile) (h : MeanHist F) (n : Nat) (v : Int) : Res (MeanHist F) := do
  let s ← idx h.sums n
  let s' ← i32Add P s v
  let sums ← setIdx h.sums n s'
  .ok { h with sums := sums }

/-- `self.sums[n] -= v` -/
def subSum (P : Profile) (h : MeanHist F) (n : Nat) (v : Int) : Res (MeanHist F) := do
  let s ← idx h.sums n
  let s' ← i32Sub P s v
  let sums ← setIdx h.sums n s'
  .ok { h with sums := sums }

/-- `self.lower[n] = ..` after an edit -/
def editLower (h : MeanHist F) (n : Nat) (f : List UInt8 → Res (List UInt8)) : Res (MeanHist F) := do
  let l ← idx h.lower n
  let l' ← f l
  let ls ← setIdx h.lower n l'
  .ok { h with lower := ls }

/-- `self.upper[n] = ..` after an edit -/
def editUpper (h : MeanHist F) (n : Nat) (f : List UInt8 → Res (List UInt8)) : Res (MeanHist F) := do
  let l ← idx h.upper n
  let l' ← f l
  let ls ← setIdx h.upper n l'
  .ok { h with upper := ls }

/-- first key in the list with a positive count -/
def firstKey (P : Profile) (h : PartialHistograms) (n : Nat) : List Nat → Res (Option Nat)
  | [] => .ok none
  | key :: keys => do
    let c ← h.getCount P key n
    if c > 0 then .ok (some key) else firstKey P h n keys

/-- src/filter/median.rs:534-547 `get_next_lower` (`lower + 1` is a u8 addition) -/
def getNextLower (P : Profile) (h : MeanHist F) (n : Nat) (lowerCount : Int) (lower : UInt8) :
    Res (MeanHist F) := do
  if lowerCount > 0 then
    let h ← h.editLower n fun l => .ok (l ++ [lower])
    h.subSum P n lower.toNat
  else
    let s ← u8Num.add P lower 1
    let k ← firstKey P h.data n (keysFrom s.toNat)
    match k with
    | none => .ok h
    | some key =>
      let h ← h.editLower n fun l => .ok (l ++ [UInt8.ofNat key])
      h.subSum P n key

/-- src/filter/median.rs:549-562 `get_next_upper` -/
def getNextUpper (P : Profile) (h : MeanHist F) (n : Nat) (upperCount : Int) (upper : UInt8) :
    Res (MeanHist F) := do
  if upperCount > 0 then
    let h ← h.editUpper n fun l => .ok (l ++ [upper])
    h.subSum P n upper.toNat
  else
    let k ← firstKey P h.data n (List.range upper.toNat).reverse
    match k with
    | none => .ok h
    | some key =>
      let h ← h.editUpper n fun l => .ok (l ++ [UInt8.ofNat key])
      h.subSum P n key

/-- value of `unwrap_or_else(|e| e)` -/
def posOf : Except Nat Nat → Nat
  | .ok p => p
  | .error p => p

/-- the `add` branch of `update` for one value: src/filter/median.rs:412-430 -/
def addValue (bs : BinSearch) (P : Profile) (h : MeanHist F) (n : Nat) (val : UInt8) : Res (MeanHist F) := do
  let lower ← h.lowerAt P n
  let upper ← h.upperAt P n
  if val < lower then
    let t ← usizeSub P h.trim 1
    let h ← h.editLower n fun l => vecRemove l t
    let h ← h.addSum P n lower.toNat
    h.editLower n fun l => vecInsert l (posOf (bs.asc l val)) val
  else if val > upper then
    let t ← usizeSub P h.trim 1
    let h ← h.editUpper n fun l => vecRemove l t
    let h ← h.addSum P n upper.toNat
    let low ← idx h.lower n
    h.editUpper n fun l => vecInsert l (posOf (bs.desc low val)) val
  else h.addSum P n val.toNat

/-- number of trailing elements equal to `v` -/
def trailing (l : List UInt8) (v : UInt8) : Nat := (l.reverse.takeWhile (· == v)).length

/-- the `remove` branch of `update` for one value at row position `i` of column `n`:
src/filter/median.rs:438-501. `rest` is the part `i..n+size` of the row. -/
def removeValue (bs : BinSearch) (P : Profile) (h : MeanHist F) (n : Nat) (val : UInt8)
    (rest : List UInt8) : Res (MeanHist F) := do
  let lower ← h.lowerAt P n
  let upper ← h.upperAt P n
  let lc ← h.data.getCount P lower.toNat n
  let uc ← h.data.getCount P upper.toNat n
  let (lc, uc) ← forList rest (lc, uc) fun v s =>
    if v == lower then do
      let a ← i32Add P s.1 1
      .ok (a, s.2)
    else if v == upper then do
      let a ← i32Add P s.2 1
      .ok (s.1, a)
    else .ok s
  let low ← idx h.lower n
  let lc ← i32Sub P lc (trailing low lower)
  let up ← idx h.upper n
  let uc ← i32Sub P uc (trailing up upper)
  if val == lower && lc == 0 then
    let t ← usizeSub P h.trim 1
    let h ← h.editLower n fun l => vecRemove l t
    h.getNextLower P n lc lower
  else if val < lower then
    match bs.asc low val with
    | .ok pos =>
      let h ← h.editLower n fun l => vecRemove l pos
      h.getNextLower P n lc lower
    | .error _ => h.subSum P n val.toNat
  else if val == upper && uc == 0 then
    let t ← usizeSub P h.trim 1
    let h ← h.editUpper n fun l => vecRemove l t
    h.getNextUpper P n uc upper
  else if val > upper then
    match bs.desc low val with
    | .ok pos =>
      let h ← h.editUpper n fun l => vecRemove l pos
      h.getNextUpper P n uc upper
    | .error _ => h.subSum P n val.toNat
  else h.subSum P n val.toNat

/-- channel `ch` of `p_in[i]` -/
def rowByte (pIn : List (List UInt8)) (i ch : Nat) : Res UInt8 := do
  let p ← idx pIn i
  idx p ch

/-- src/filter/median.rs:407-508 `update` -/
def update (bs : BinSearch) (P : Profile) (h : MeanHist F) (pIn : List (List UInt8)) (ch : Nat) (add : Bool) :
    Res (MeanHist F) := do
  if h.sums ≠ [] then
    if add then
      let h ← forRange 0 h.data.nCols h fun n h =>
        forRange n (n + h.data.size) h fun i h => do
          let val ← rowByte pIn i ch
          h.addValue bs P n val
      let d ← h.data.update P pIn ch add
      .ok { h with data := d }
    else
      let d ← h.data.update P pIn ch add
      let h : MeanHist F := { h with data := d }
      forRange 0 h.data.nCols h fun n h =>
        forRange n (n + h.data.size) h fun i h => do
          let val ← rowByte pIn i ch
          let rest ← forRange i (n + h.data.size) [] fun j acc => do
            let v ← rowByte pIn j ch
            .ok (acc ++ [v])
          h.removeValue bs P n val rest
  else
    let d ← h.data.update P pIn ch add
    .ok { h with data := d }

/-- src/filter/median.rs:530-532 `get_mean` -/
def getMean (h : MeanHist F) (index : Nat) : Res UInt8 := do
  let s ← idx h.sums index
  .ok (toU8 (FloatOps.round ((FloatOps.ofInt s : F) /. h.len)))
end MeanHist

section
variable {F : Type} [FloatOps F]

/-- `add_row_mean` / `remove_row_mean`: src/filter/median.rs:671-681 -/
def rowMean (bs : BinSearch) (P : Profile) (hists : List (MeanHist F)) (pIn : List (List UInt8)) (add : Bool) :
    Res (List (MeanHist F)) :=
  forEnum hists 0 [] fun c h acc => do
    let h' ← h.update bs P pIn c add
    .ok (acc ++ [h'])

/-- `while lower.len() < trim && add > 0 { lower.push(key); sum -= key; add -= 1 }`
src/filter/median.rs:634-638. State: (lower, sum, add); `fuel` bounds the number of pushes. -/
def takeLower (P : Profile) (trim key : Nat) : Nat → List UInt8 × Int × Int → Res (List UInt8 × Int × Int)
  | 0, s => .ok s
  | fuel + 1, (lower, sum, add) =>
    if lower.length < trim ∧ add > 0 then do
      let sum ← i32Sub P sum key
      let add ← i32Sub P add 1
      takeLower P trim key fuel (lower ++ [UInt8.ofNat key], sum, add)
    else .ok (lower, sum, add)

/-- `while count > upper_trim && upper.len() < trim && add > 0 { upper.insert(0, key); .. }`
src/filter/median.rs:640-644 -/
def takeUpper (P : Profile) (trim upperTrim key : Nat) (count : Int) :
    Nat → List UInt8 × Int × Int → Res (List UInt8 × Int × Int)
  | 0, s => .ok s
  | fuel + 1, (upper, sum, add) =>
    if (count % 18446744073709551616).toNat > upperTrim ∧ upper.length < trim ∧ add > 0 then do
      let sum ← i32Sub P sum key
      let add ← i32Sub P add 1
      takeUpper P trim upperTrim key count fuel (UInt8.ofNat key :: upper, sum, add)
    else .ok (upper, sum, add)

/-- first-row state of one histogram column: (count, sum, lower, upper) after all keys,
src/filter/median.rs:624-645 -/
def initTrim (P : Profile) (h : PartialHistograms) (trim upperTrim i : Nat) :
    Res (Int × Int × List UInt8 × List UInt8) :=
  forRange 0 256 ((0 : Int), (0 : Int), [], []) fun key s => do
    let add ← h.getCount P key i
    let count ← i32Add P s.1 add
    let prod ← i32Mul P add key
    let sum ← i32Add P s.2.1 prod
    let (lower, sum, add) ← takeLower P trim key (trim + 1) (s.2.2.1, sum, add)
    let (upper, sum, _) ← takeUpper P trim upperTrim key count (trim + 1) (s.2.2.2, sum, add)
    .ok (count, sum, lower, upper)

/-- src/filter/median.rs:597-657 `init_cols_mean`. `row_in` is not cleared between rows. -/
def initColsMean (bs : BinSearch) (P : Profile) (input output : Image UInt8) (hists : List (MeanHist F))
    (radius alpha nCols x : Nat) : Res (Image UInt8 × List (MeanHist F)) := do
  let r2 ← u32Mul P 2 radius
  let size ← u32Add P r2 1
  let hi ← i32Add P (toI32 radius) 1
  let lo ← wrapInt P I32HALF (-(toI32 radius))
  let s ← forRangeI lo hi (([] : List (List UInt8)), hists) fun j s => do
    let hm ← i32Sub P (toI32 input.info.height) 1
    let l ← i32Sub P (toI32 x) (toI32 radius)
    let a ← u32Add P x (usizeToU32 nCols)
    let b ← u32Add P a radius
    let row ← forRangeI l (toI32 b) s.1 fun i row => do
      let wm ← i32Sub P (toI32 input.info.width) 1
      let ic ← intClamp i 0 wm
      let jc ← intClamp j 0 hm
      let p ← input.getPixelUnchecked P (i32ToU32 ic) (i32ToU32 jc)
      .ok (row ++ [p])
    let hists ← rowMean bs P s.2 row true
    .ok (row, hists)
  let hists := s.2.map MeanHist.init
  let trim := alpha / 2
  let s2 ← u32Mul P size size
  let upperTrim ← usizeSub P s2 trim
  forRange 0 nCols (output, hists) fun i s => do
    let (hists, pOut) ← forHists s.2 fun _ h pOut => do
      let r ← initTrim P h.data trim upperTrim i
      let sums ← setIdx h.sums i r.2.1
      let upper ← setIdx h.upper i r.2.2.2
      let lower ← setIdx h.lower i r.2.2.1
      let h : MeanHist F := { h with sums := sums, upper := upper, lower := lower }
      let m ← h.getMean i
      .ok (h, pOut ++ [m])
    let output ← writeClamped P s.1 x i 0 pOut
    .ok (output, hists)

/-- src/filter/median.rs:659-669 `process_row_mean` -/
def processRowMean (P : Profile) (output : Image UInt8) (hists : List (MeanHist F)) (nCols x y : Nat) :
    Res (Image UInt8) :=
  forRange 0 nCols output fun i output => do
    let (_, pOut) ← forHists hists fun _ h pOut => do
      let m ← h.getMean i
      .ok (h, pOut ++ [m])
    writeClamped P output x i y pOut

/-- src/filter/median.rs:565-595 `process_cols_mean` -/
def processColsMean (bs : BinSearch) (P : Profile) (F : Type) [FloatOps F] (input output : Image UInt8)
    (radius alpha nCols x : Nat) : Res (Image UInt8) := do
  let h0 : MeanHist F ← MeanHist.new P radius nCols alpha
  let hists := List.replicate input.info.channels h0
  let s ← initColsMean bs P input output hists radius alpha nCols x
  let s ← forRange 1 input.info.height s fun j s => do
    let (jIn, jOut) ← rowInOut P input.info.height radius j
    let rowIn ← inputRow P input radius nCols x jIn
    let rowOut ← inputRow P input radius nCols x jOut
    let hists ← rowMean bs P s.2 rowIn true
    let hists ← rowMean bs P hists rowOut false
    let output ← processRowMean P s.1 hists nCols x j
    .ok (output, hists)
  .ok s.1

/-- src/filter/median.rs:29-50 `alpha_trimmed_mean_filter` -/
def alphaTrimmedMeanFilter (F : Type) [FloatOps F] (bs : BinSearch) (P : Profile) (input : Image UInt8)
    (radius alpha : Nat) : Res (Image UInt8) := do
  let r2 ← u32Mul P 2 radius
  let size ← u32Add P r2 1
  checkEven u32Num alpha
  let s2 ← u32Mul P size size
  if alpha ≥ s2 then invalidArg
  else
    let nCols := medianNCols F radius
    let output ← Image.blank P u8Num input.info
    forStep 0 output.info.width nCols output fun x output =>
      processColsMean bs P F input output radius alpha nCols x
end
end Imgproc
