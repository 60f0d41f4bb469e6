import Mathlib.Data.Nat.Digits.Defs
import Mathlib.Data.Rat.Floor
import Mathlib.Data.Int.Log
import Verif.Model.Basic
import Verif.Model.Outcome
/-!
Checkpoints of md-flexible: writing the particles of all ranks into vtk files and loading them again.

Models `examples/md-flexible/src/ParallelVtkWriter.cpp` and the checkpoint part of
`examples/md-flexible/src/configuration/MDFlexConfig.cpp` at the level of characters.

Simplifications: a finite `double` is its exact value, a rational number (the conversion of the decimal text back to the closest `double`
and the sign of zero are not modelled). Texts are lists of characters; the functions of the C++ standard library for formatted output and
input of numbers are modelled as the standard and its implementation libstdc++ define them, for the "C" locale.
-/
namespace Verif

/-- A `double`: a finite value or one of the special values. -/
inductive Dbl
  | num (q : Rat)
  | nan
  | inf (negative : Bool)
  deriving DecidableEq

/-- The members of a particle that a checkpoint contains; `quat`, `angVel` and `torque` only exist if md-flexible is compiled with
`MD_FLEXIBLE_MODE == MULTISITE`. -/
structure CkParticle where
  pos : V3 Dbl
  vel : V3 Dbl
  force : V3 Dbl
  typeId : Nat
  id : Nat
  quat : Dbl × Dbl × Dbl × Dbl := (.num 0, .num 0, .num 0, .num 0)
  angVel : V3 Dbl := ⟨.num 0, .num 0, .num 0⟩
  torque : V3 Dbl := ⟨.num 0, .num 0, .num 0⟩

/-! ### Output of numbers -/

/-- The character of a digit. -/
def digitChar (d : Nat) : Char := Char.ofNat (48 + d)

/-- `stream << n` for an unsigned integer. -/
def natText (n : Nat) : List Char := if n = 0 then ['0'] else (Nat.digits 10 n).reverse.map digitChar

/-- Rounding to the nearest integer, ties to even: how the digits of a printed `double` are rounded. -/
def roundHalfEven (x : Rat) : Int :=
  if x - ⌊x⌋ < 1 / 2 then ⌊x⌋
  else if 1 / 2 < x - ⌊x⌋ then ⌊x⌋ + 1
  else if ⌊x⌋ % 2 = 0 then ⌊x⌋ else ⌊x⌋ + 1

/-- Removes trailing zeros. -/
def stripZeros (cs : List Char) : List Char := (cs.reverse.dropWhile (· = '0')).reverse

/-- A fraction part, with the decimal point if there are digits left. -/
def fracText (cs : List Char) : List Char := if stripZeros cs = [] then [] else '.' :: stripZeros cs

/-- The exponent of the scientific notation, with at least two digits. -/
def expText (x : Int) : List Char :=
  'e' :: (if x < 0 then '-' else '+') :: (if x.natAbs < 10 then '0' :: natText x.natAbs else natText x.natAbs)

/-- The significant digits, as an integer with `prec` digits, and the decimal exponent of a positive number. -/
def sigDigits (prec : Nat) (a : Rat) : Nat × Int :=
  let e := Int.log 10 a
  let m := (roundHalfEven (a * (10 : Rat) ^ ((prec : Int) - 1 - e))).toNat
  if m = 10 ^ prec then (10 ^ (prec - 1), e + 1) else (m, e)

/-- The text of a positive number with significant digits `m` and exponent `x`: conversion specifier `%.<prec>g`. -/
def digitsText (prec : Nat) (m : Nat) (x : Int) : List Char :=
  let ds := natText m
  if x < -4 ∨ (prec : Int) ≤ x then ds.take 1 ++ fracText (ds.drop 1) ++ expText x
  else if 0 ≤ x then ds.take (x.toNat + 1) ++ fracText (ds.drop (x.toNat + 1))
  else '0' :: fracText (List.replicate (x.natAbs - 1) '0' ++ ds)

/-- `stream << q` for a finite `double` and a stream with the given precision (conversion specifier `%.<prec>g`). -/
def ratText (prec : Nat) (q : Rat) : List Char :=
  if q = 0 then ['0']
  else (if q < 0 then ['-'] else []) ++ digitsText prec (sigDigits prec |q|).1 (sigDigits prec |q|).2

/-- `stream << d` for a `double`. -/
def dblText (prec : Nat) : Dbl → List Char
  | .num q => ratText prec q
  | .nan => "nan".toList
  | .inf negative => (if negative then "-inf" else "inf").toList

/-! ### The writer -/

/-- `std::round`: to the nearest integer, ties away from zero. -/
def roundHalfAway (x : Rat) : Int := if 0 ≤ x then ⌊x + 1 / 2⌋ else -⌊-x + 1 / 2⌋

/-- `utils::Math::roundFloating` (src/autopas/utils/Math.cpp:47-55); `std::ceil(std::log10(std::abs(d)))` is `Int.clog`. -/
def roundFloating (d : Rat) (prec : Nat) : Rat :=
  if d = 0 then d
  else
    let factor := (10 : Rat) ^ ((prec : Int) - Int.clog 10 |d|)
    roundHalfAway (d * factor) / factor

/-- `utils::Math::isNearAbs` (src/autopas/utils/Math.cpp:39). -/
def isNearAbs (a b tol : Rat) : Bool := |a - b| ≤ tol

/-- The loop of `writeWithDynamicPrecision` (ParallelVtkWriter.cpp:156-171) from the given precision on. The first argument bounds the
number of passes: precision 6 to 15. -/
def precisionLoop (position border : Rat) : Nat → Nat → Outcome Nat
  | 0, _ => .throws
  | fuel + 1, prec =>
    if isNearAbs (roundFloating position prec) border (1 / 10 ^ prec) then
      if prec + 1 > 15 then .throws else precisionLoop position border fuel (prec + 1)
    else .ok prec

/-- `writeWithDynamicPrecision` (ParallelVtkWriter.cpp:149-175): the precision used for one component of a position; 6 is the default
precision of streams. -/
def positionPrecision (position border : Rat) : Outcome Nat :=
  if border - position < 1 / 10 then precisionLoop position border 10 6 else .ok 6

/-- The text written for one component of a position (ParallelVtkWriter.cpp:149-175). For the special values the precision is not
changed: for NaN and minus infinity the comparison in line 151 is false, for plus infinity `roundFloating` yields NaN and the loop condition is
false. -/
def positionText (position : Dbl) (border : Rat) : Outcome (List Char) :=
  match position with
  | .num q => (positionPrecision q border).bind fun prec => .ok (ratText prec q)
  | d => .ok (dblText 6 d)

/-- The indentation of a line of data. -/
def lineIndent : List Char := "        ".toList

/-- A line of a data array: eight spaces and the values separated by spaces. -/
def dataLine (vs : List (List Char)) : List Char := lineIndent ++ [' '].intercalate vs ++ ['\n']

/-- The components of a vector as texts. -/
def v3Text (v : V3 Dbl) : List (List Char) := [dblText 6 v.x, dblText 6 v.y, dblText 6 v.z]

/-- The line of a position (ParallelVtkWriter.cpp:177-184). -/
def positionLine (boxMax : V3 Rat) (p : CkParticle) : Outcome (List Char) :=
  (positionText p.pos.x boxMax.x).bind fun x => (positionText p.pos.y boxMax.y).bind fun y => (positionText p.pos.z boxMax.z).bind fun z =>
    .ok (dataLine [x, y, z])

/-- The lines of all positions (loop in lines 137-185). -/
def positionLines (boxMax : V3 Rat) : List CkParticle → Outcome (List Char)
  | [] => .ok []
  | p :: ps => (positionLine boxMax p).bind fun l => (positionLines boxMax ps).bind fun ls => .ok (l ++ ls)

/-- The opening tag of a data array, as in lines 84, 92, 101, ... -/
def arrayOpen (name comps type : String) : List Char :=
  ("        <DataArray Name=\"" ++ name ++ "\" NumberOfComponents=\"" ++ comps ++ "\" format=\"ascii\" type=\"" ++ type ++ "\">\n").toList

/-- The closing tag of a data array, as in lines 89, 97, ... -/
def arrayClose : List Char := "        </DataArray>\n".toList

/-- A complete data array. -/
def dataArray (name comps type : String) (rows : List (List (List Char))) : List Char :=
  arrayOpen name comps type ++ (rows.flatMap dataLine ++ arrayClose)

/-- Beginning of a vtu file up to the number of particles (lines 74-77). -/
def vtuHead : List Char :=
  ("<?xml version=\"1.0\" encoding=\"UTF-8\" standalone=\"no\" ?>\n" ++
    "<VTKFile byte_order=\"LittleEndian\" type=\"UnstructuredGrid\" version=\"0.1\">\n" ++ "  <UnstructuredGrid>\n" ++
    "    <Piece NumberOfCells=\"0\" NumberOfPoints=\"").toList

/-- The text between the number of particles and the data (lines 77-78). -/
def vtuPoints : List Char := "\">\n      <PointData>\n".toList

/-- The text between the ids and the positions (lines 131-133). -/
def vtuMid : List Char := "      </PointData>\n      <CellData/>\n      <Points>\n".toList

/-- The end of a vtu file (lines 188-195). -/
def vtuTail : List Char :=
  ("      </Points>\n" ++ "      <Cells>\n" ++
    "        <DataArray Name=\"types\" NumberOfComponents=\"0\" format=\"ascii\" type=\"Float32\"/>\n" ++ "      </Cells>\n" ++
    "    </Piece>\n" ++ "  </UnstructuredGrid>\n" ++ "</VTKFile>\n").toList

/-- The additional data of molecules with several sites (lines 99-124). -/
def multisiteArrays (ps : List CkParticle) : List Char :=
  dataArray "quaternions" "4" "Float32"
      (ps.map fun p => [dblText 6 p.quat.1, dblText 6 p.quat.2.1, dblText 6 p.quat.2.2.1, dblText 6 p.quat.2.2.2]) ++
    (dataArray "angularVelocities" "3" "Float32" (ps.map fun p => v3Text p.angVel) ++
      dataArray "torques" "3" "Float32" (ps.map fun p => v3Text p.torque))

/-- `ParallelVtkWriter::recordParticleStates` (ParallelVtkWriter.cpp:55-198): the content of the file of one rank with the given owned
particles and upper corner of the local box. -/
def vtuFile (multisite : Bool) (boxMax : V3 Rat) (ps : List CkParticle) : Outcome (List Char) :=
  (positionLines boxMax ps).bind fun positions =>
    .ok (vtuHead ++ (natText ps.length ++ (vtuPoints ++
      (dataArray "velocities" "3" "Float32" (ps.map fun p => v3Text p.vel) ++
        (dataArray "forces" "3" "Float32" (ps.map fun p => v3Text p.force) ++
          ((if multisite then multisiteArrays ps else []) ++
            (dataArray "typeIds" "1" "Int32" (ps.map fun p => [natText p.typeId]) ++
              (dataArray "ids" "1" "Int32" (ps.map fun p => [natText p.id]) ++
                (vtuMid ++ (arrayOpen "positions" "3" "Float32" ++ (positions ++ (arrayClose ++ vtuTail))))))))))))

/-- A number with leading zeros (`std::setfill('0') << std::setw(width)`). -/
def paddedText (width n : Nat) : List Char := List.replicate (width - (natText n).length) '0' ++ natText n

/-- Name of the file of one rank (`generateFilename`, ParallelVtkWriter.cpp:438-442). The session folder is given without the final `/`. -/
def vtuPath (dir name : List Char) (width iteration rank : Nat) : List Char :=
  dir ++ "/data/".toList ++ name ++ "_Particles_".toList ++ natText rank ++ "_".toList ++ paddedText width iteration ++ ".vtu".toList

/-- Name of the main file (ParallelVtkWriter.cpp:310-312). -/
def pvtuPath (dir name : List Char) (width iteration : Nat) : List Char :=
  dir ++ "/".toList ++ name ++ "_Particles_".toList ++ paddedText width iteration ++ ".pvtu".toList

/-- The lines for the additional data of molecules with several sites (ParallelVtkWriter.cpp:329-334). -/
def pvtuMultisite : List String :=
  ["      <PDataArray Name=\"quaternions\" NumberOfComponents=\"4\" format=\"ascii\" type=\"Float32\"/>\n",
    "      <PDataArray Name=\"angularVelocities\" NumberOfComponents=\"3\" format=\"ascii\" type=\"Float32\"/>\n",
    "      <PDataArray Name=\"torques\" NumberOfComponents=\"3\" format=\"ascii\" type=\"Float32\"/>\n"]

/-- The lines in front of them (ParallelVtkWriter.cpp:321-327). -/
def pvtuFirst : List String :=
  ["<?xml version=\"1.0\" encoding=\"UTF-8\" standalone=\"no\" ?>\n",
    "<VTKFile byte_order=\"LittleEndian\" type=\"PUnstructuredGrid\" version=\"0.1\">\n",
    "  <PUnstructuredGrid GhostLevel=\"0\">\n", "    <PPointData>\n",
    "      <PDataArray Name=\"velocities\" NumberOfComponents=\"3\" format=\"ascii\" type=\"Float32\"/>\n",
    "      <PDataArray Name=\"forces\" NumberOfComponents=\"3\" format=\"ascii\" type=\"Float32\"/>\n"]

/-- The lines behind them (ParallelVtkWriter.cpp:335-344). -/
def pvtuSecond : List String :=
  ["      <PDataArray Name=\"typeIds\" NumberOfComponents=\"1\" format=\"ascii\" type=\"Int32\"/>\n",
    "      <PDataArray Name=\"ids\" NumberOfComponents=\"1\" format=\"ascii\" type=\"Int32\"/>\n",
    "    </PPointData>\n", "    <PCellData/>\n", "    <PPoints>\n",
    "      <PDataArray Name=\"positions\" NumberOfComponents=\"3\" format=\"ascii\" type=\"Float32\"/>\n",
    "    </PPoints>\n", "    <PCells>\n",
    "      <PDataArray Name=\"types\" NumberOfComponents=\"0\" format=\"ascii\" type=\"Float32\"/>\n", "    </PCells>\n"]

/-- The beginning of the main file (ParallelVtkWriter.cpp:321-344). -/
def pvtuHead (multisite : Bool) : List Char :=
  (pvtuFirst ++ (if multisite then pvtuMultisite else []) ++ pvtuSecond).flatMap String.toList

/-- The line of one piece in the main file (ParallelVtkWriter.cpp:346-349). -/
def pieceLine (name : List Char) (width iteration rank : Nat) : List Char :=
  "    <Piece Source=\"./data/".toList ++ (name ++ ("_Particles_".toList ++ (natText rank ++ ("_".toList ++
    (paddedText width iteration ++ ".vtu\"/>\n".toList)))))

/-- `createParticlesPvtuFile` (ParallelVtkWriter.cpp:309-355): the content of the main file. -/
def pvtuFile (multisite : Bool) (name : List Char) (width iteration numRanks : Nat) : List Char :=
  pvtuHead multisite ++ ((List.range numRanks).flatMap (pieceLine name width iteration) ++ "  </PUnstructuredGrid>\n</VTKFile>\n".toList)

/-- A file system: the content of the files that exist. -/
abbrev FileSystem := List Char → Option (List Char)

/-- Creates or overwrites a file. -/
def FileSystem.write (fs : FileSystem) (path content : List Char) : FileSystem := fun p => if p = path then some content else fs p

/-- All files in the order in which they are written. -/
def FileSystem.writeAll (fs : FileSystem) (order : List (List Char × List Char)) : FileSystem :=
  order.foldl (fun fs w => fs.write w.1 w.2) fs

/-- What the ranks write for a checkpoint: rank 0 the main file, and each rank, with the upper corner of its box and its particles, its own
file. An exception on any rank ends the program. -/
def checkpointFiles (multisite : Bool) (dir name : List Char) (width iteration : Nat) (ranks : List (V3 Rat × List CkParticle)) :
    Outcome (List (List Char × List Char)) :=
  let rec go : Nat → List (V3 Rat × List CkParticle) → Outcome (List (List Char × List Char))
    | _, [] => .ok []
    | r, (boxMax, ps) :: rest => (vtuFile multisite boxMax ps).bind fun f => (go (r + 1) rest).bind fun fs =>
        .ok ((vtuPath dir name width iteration r, f) :: fs)
  (go 0 ranks).bind fun fs => .ok ((pvtuPath dir name width iteration, pvtuFile multisite name width iteration ranks.length) :: fs)

/-! ### The loader -/

/-- State of a `std::ifstream`: characters that are left, end of file reached, or an error without end of file. -/
inductive InStream
  | good (rest : List Char)
  | eof
  | failed
  deriving DecidableEq

/-- The separators of `findWord` (MDFlexConfig.cpp:56). -/
def wordSeparators : List Char :=
  [' ', '/', '.', ',', '?', '!', '"', '\'', '<', '>', '=', ':', ';', '\n', '\t', '\r']

/-- The loop of `findWord` (MDFlexConfig.cpp:58-65) with the current word. -/
def findWordGo (word : List Char) : List Char → List Char → InStream
  | _, [] => .eof
  | cur, c :: rest =>
    let cur' := if c ∈ wordSeparators then [] else cur ++ [c]
    if cur' = word then .good rest else findWordGo word cur' rest

/-- `findWord` (MDFlexConfig.cpp:55-66) for a non-empty word. After an error `get` has no effect, but end of file is never reached. -/
def findWord (word : String) : InStream → Outcome InStream
  | .good rest => .ok (findWordGo word.toList [] rest)
  | .eof => .ok .eof
  | .failed => .diverges

/-- `ignore(max, delim)`. -/
def ignoreUntil (delim : Char) : InStream → InStream
  | .good rest => match rest.dropWhile (· ≠ delim) with
    | [] => .eof
    | _ :: t => .good t
  | s => s

/-- White space, skipped before a number. -/
def isSpaceChar (c : Char) : Bool := c = ' ' ∨ c = '\n' ∨ c = '\t' ∨ c = '\r' ∨ c = Char.ofNat 11 ∨ c = Char.ofNat 12

/-- A digit. -/
def isDigitChar (c : Char) : Bool := 48 ≤ c.toNat ∧ c.toNat ≤ 57

/-- Value of a list of digits. -/
def digitsVal (cs : List Char) : Nat := cs.foldl (fun n c => 10 * n + (c.toNat - 48)) 0

/-- The state after reading: end of file is noticed when the number ends there. -/
def endState (ok : Bool) (rest : List Char) : InStream :=
  match rest with
  | [] => .eof
  | _ => if ok then .good rest else .failed

/-- The sign in front of a number: whether it is a minus. -/
def scanSign : List Char → Bool × List Char
  | '-' :: r => (true, r)
  | '+' :: r => (false, r)
  | r => (false, r)

/-- The fraction part. -/
def scanFrac : List Char → List Char × List Char
  | '.' :: r => (r.takeWhile isDigitChar, r.dropWhile isDigitChar)
  | r => ([], r)

/-- The exponent: digits are mandatory. -/
def scanExp : List Char → Option (Int × List Char)
  | c :: r =>
    if c = 'e' ∨ c = 'E' then
      let s := scanSign r
      let ds := s.2.takeWhile isDigitChar
      if ds = [] then none else some (if s.1 then -(digitsVal ds : Int) else digitsVal ds, s.2.dropWhile isDigitChar)
    else some (0, c :: r)
  | [] => some (0, [])

/-- `stream >> d` for a `double` (`num_get::do_get` of libstdc++): 0 and an error if there is no number. -/
def readDouble : InStream → Rat × InStream
  | .good rest =>
    let r0 := rest.dropWhile isSpaceChar
    let s := scanSign r0
    let ip := s.2.takeWhile isDigitChar
    let f := scanFrac (s.2.dropWhile isDigitChar)
    if ip ++ f.1 = [] then (0, endState false f.2)
    else match scanExp f.2 with
      | none => (0, endState false ((scanSign f.2.tail).2))
      | some (e, r) =>
        ((if s.1 then -1 else 1) * (digitsVal (ip ++ f.1) : Rat) * (10 : Rat) ^ (e - (f.1.length : Int)), endState true r)
  | s => (0, s)

/-- `stream >> n` for a `size_t`; too large numbers are an error. -/
def readNat : InStream → Nat × InStream
  | .good rest =>
    let r0 := rest.dropWhile isSpaceChar
    let s := scanSign r0
    let ds := s.2.takeWhile isDigitChar
    let r := s.2.dropWhile isDigitChar
    if ds = [] then (0, endState false r)
    else if 2 ^ 64 ≤ digitsVal ds then (2 ^ 64 - 1, endState false r)
    else (if s.1 then (2 ^ 64 - digitsVal ds) % 2 ^ 64 else digitsVal ds, endState true r)
  | s => (0, s)

/-- `readPayload` (MDFlexConfig.cpp:32-47) with the function that reads one line. -/
def readPayload {α : Type} (read : InStream → α × InStream) : Nat → InStream → List α × InStream
  | 0, s => ([], s)
  | n + 1, s =>
    let a := read s
    let as := readPayload read n a.2
    (a.1 :: as.1, as.2)

/-- Three components (the inner loop of `readPayload`). -/
def readV3 (s : InStream) : V3 Dbl × InStream :=
  let x := readDouble s
  let y := readDouble x.2
  let z := readDouble y.2
  (⟨.num x.1, .num y.1, .num z.1⟩, z.2)

/-- Four components. -/
def readQuat (s : InStream) : (Dbl × Dbl × Dbl × Dbl) × InStream :=
  let a := readDouble s
  let b := readDouble a.2
  let c := readDouble b.2
  let d := readDouble c.2
  ((.num a.1, .num b.1, .num c.1, .num d.1), d.2)

/-- Looks for a data array and reads it (the repeated three lines in MDFlexConfig.cpp:128-163). -/
def readArray {α : Type} (name : String) (read : InStream → α × InStream) (n : Nat) (s : InStream) : Outcome (List α × InStream) :=
  (findWord name s).bind fun s => .ok (readPayload read n (ignoreUntil '\n' s))

/-- The vector with three zeros, and the quaternion with four. -/
def zeroV3 : V3 Dbl := ⟨.num 0, .num 0, .num 0⟩

/-- `loadParticlesFromRankRecord` (MDFlexConfig.cpp:118-184) after the file was opened. -/
def loadVtu (multisite : Bool) (content : List Char) : Outcome (List CkParticle) :=
  (findWord "NumberOfPoints" (.good content)).bind fun s =>
  let n := readNat (ignoreUntil '"' s)
  if n.1 = 0 then .throws
  else
    (readArray "velocities" readV3 n.1 n.2).bind fun vel =>
    (readArray "forces" readV3 n.1 vel.2).bind fun force =>
    (if multisite then
      (readArray "quaternions" readQuat n.1 force.2).bind fun quat =>
      (readArray "angularVelocities" readV3 n.1 quat.2).bind fun angVel =>
      (readArray "torques" readV3 n.1 angVel.2).bind fun torque => .ok (quat.1, angVel.1, torque)
    else .ok ([], [], ([], force.2))).bind fun ms =>
    (readArray "typeIds" readNat n.1 ms.2.2.2).bind fun typeIds =>
    (readArray "ids" readNat n.1 typeIds.2).bind fun ids =>
    (readArray "positions" readV3 n.1 ids.2).bind fun pos =>
    .ok ((List.range n.1).map fun i =>
      { pos := pos.1.getD i zeroV3
        vel := vel.1.getD i zeroV3
        force := force.1.getD i zeroV3
        typeId := typeIds.1.getD i 0
        id := ids.1.getD i 0
        quat := ms.1.getD i (.num 0, .num 0, .num 0, .num 0)
        angVel := ms.2.1.getD i zeroV3
        torque := ms.2.2.1.getD i zeroV3 })

/-- `find_last_of(c)`: the parts of the text in front of and behind the last occurrence. -/
def splitLast (c : Char) (cs : List Char) : Option (List Char × List Char) :=
  if c ∈ cs then some ((cs.reverse.dropWhile (· ≠ c)).tail.reverse, (cs.reverse.takeWhile (· ≠ c)).reverse) else none

/-- The name of the file of a rank (MDFlexConfig.cpp:92-115). If there is no `/`, `find_last_of` returns `npos`: the path is then the complete
name (and so is the base name because `npos + 1` is 0). The same happens for a missing `_` (the name of the scenario is everything; the iteration
starts at 0 and has `find_last_of('.') - npos - 1` characters, i.e. everything in front of the dot). Without a dot the length is beyond the
end: everything behind the `_`. -/
def rankFilename (filename : List Char) (rank : Nat) : List Char :=
  let path := match splitLast '/' filename with
    | some (a, _) => a
    | none => filename
  let base := match splitLast '/' filename with
    | some (_, b) => b
    | none => filename
  let scenario := match splitLast '_' base with
    | some (a, _) => a
    | none => base
  let iterationEnd := match splitLast '_' base with
    | some (_, b) => b
    | none => base
  let iteration := match splitLast '.' iterationEnd with
    | some (a, _) => a
    | none => iterationEnd
  path ++ "/data/".toList ++ scenario ++ "_".toList ++ natText rank ++ "_".toList ++ iteration ++ ".vtu".toList

/-- `loadParticlesFromRankRecord` (MDFlexConfig.cpp:91-185). -/
def loadRankRecord (multisite : Bool) (fs : FileSystem) (filename : List Char) (rank : Nat) : Outcome (List CkParticle) :=
  match fs (rankFilename filename rank) with
  | none => .throws
  | some content => loadVtu multisite content

/-- The loop of `getNumPiecesInCheckpoint` (MDFlexConfig.cpp:78-83): the number of hits. The first argument bounds the number of passes, each
of which consumes a character. -/
def countPiecesGo : Nat → InStream → Nat
  | fuel + 1, .good rest => match findWordGo "Piece".toList [] rest with
    | .good r => countPiecesGo fuel (.good r) + 1
    | _ => 0
  | _, _ => 0

/-- `getNumPiecesInCheckpoint` (MDFlexConfig.cpp:75-84). -/
def numPieces (content : List Char) : Nat := countPiecesGo (content.length + 1) (.good content)

/-- The loop over all pieces (MDFlexConfig.cpp:657-659). -/
def loadPieces (load : Nat → Outcome (List CkParticle)) : Nat → Nat → Outcome (List CkParticle)
  | _, 0 => .ok []
  | i, n + 1 => (load i).bind fun ps => (loadPieces load (i + 1) n).bind fun qs => .ok (ps ++ qs)

/-- `MDFlexConfig::loadParticlesFromCheckpoint` (MDFlexConfig.cpp:638-662): the particles loaded by one of the ranks. -/
def loadCheckpoint (multisite : Bool) (fs : FileSystem) (filename : List Char) (rank numRanks : Nat) : Outcome (List CkParticle) :=
  match fs filename with
  | none => .throws
  | some content =>
    if numRanks = numPieces content then loadRankRecord multisite fs filename rank
    else if rank = 0 then loadPieces (loadRankRecord multisite fs filename) 0 (numPieces content)
    else .ok []

end Verif
