import Verif.Model.Checkpoint
/-!
# The names of the files of the vtk output

/repo/examples/md-flexible/src/ParallelVtkWriter.cpp and /repo/examples/md-flexible/src/Simulation.cpp:92-95. Texts are lists of characters.
-/
namespace Verif

/-- `recordParticleStates` and `recordDomainSubdivision` write two kinds of files (ParallelVtkWriter.cpp:55-198, 200-290). -/
inductive VtkTag
  | particles
  | ranks
  deriving DecidableEq

/-- The tag in the names, ParallelVtkWriter.cpp:62 and 214. -/
def VtkTag.text : VtkTag → List Char
  | .particles => "Particles".toList
  | .ranks => "Ranks".toList

/-- `_maximumNumberOfDigitsInIteration`: `std::to_string(_configuration.iterations.value).size()` in Simulation.cpp:92-95. The configuration sets the
number of iterations to 0 if the simulation is limited by tuning phases, MDFlexConfig.cpp:200-202. -/
def vtkWidth (iterations tuningPhases : Nat) : Nat := (natText (if tuningPhases > 0 then 0 else iterations)).length

/-- `_sessionFolderPath`, ParallelVtkWriter.cpp:302. -/
def sessionFolder (location name : List Char) : List Char := location ++ ['/'] ++ name ++ ['/']

/-- `_dataFolderPath`, ParallelVtkWriter.cpp:305. -/
def dataFolder (location name : List Char) : List Char := sessionFolder location name ++ "data/".toList

/-- `generateFilename` with the extension `vtu`, ParallelVtkWriter.cpp:438-442. -/
def dataFileName (location name : List Char) (width : Nat) (tag : VtkTag) (rank iteration : Nat) : List Char :=
  dataFolder location name ++ name ++ ['_'] ++ tag.text ++ ['_'] ++ natText rank ++ ['_'] ++ paddedText width iteration ++ ['.'] ++ "vtu".toList

/-- The name of the main file, ParallelVtkWriter.cpp:310-312 and 362-364. -/
def mainFileName (location name : List Char) (width : Nat) (tag : VtkTag) (iteration : Nat) : List Char :=
  sessionFolder location name ++ name ++
    (match tag with | .particles => "_Particles_".toList | .ranks => "_Ranks_".toList) ++ paddedText width iteration ++ ".pvtu".toList

/-- The text of the attribute `Source` for one rank, ParallelVtkWriter.cpp:347-348 and 411-413. -/
def pieceSource (name : List Char) (width : Nat) (tag : VtkTag) (iteration rank : Nat) : List Char :=
  "./data/".toList ++ name ++ (match tag with | .particles => "_Particles_".toList | .ranks => "_Ranks_".toList) ++ natText rank ++ ['_'] ++
    paddedText width iteration ++ ".vtu".toList

/-- The sources the main file lists, in order: the loops of ParallelVtkWriter.cpp:346-349 and 410-414. -/
def pieceSources (name : List Char) (width : Nat) (tag : VtkTag) (iteration numRanks : Nat) : List (List Char) :=
  (List.range numRanks).map (pieceSource name width tag iteration)

end Verif
