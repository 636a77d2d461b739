import Mathlib.Data.List.Basic
import Mathlib.Logic.Function.Basic

/-!
# Model of the preparation of the output directory

`SolverConfiguration::prepareOutputDirectory`.
Paths are relative to `/repo/src/library/natrium`, abbreviated `P`.

The state is the part of the file system that the function looks at, as it is for process 0 (the other processes do nothing, line 333).
Not modelled: other programs changing the directory meanwhile, symbolic links, times of last change, full disks, crashes half-way.
Files below the first level of the output directory are not touched by the code; a subdirectory is just empty or not.
-/

namespace NATriuM
namespace OutputDirectory

/-- What is found under a name in the output directory. -/
inductive Item
  /-- A file with its content; whether this process may write to it. -/
  | file (content : String) (writable : Bool)
  /-- A subdirectory; whether it is empty. -/
  | dir (empty : Bool)
  deriving DecidableEq

/-- The first level of the output directory. -/
abbrev Listing := String → Option Item

/-- What is found at the path of the output directory. -/
inductive Node
  | absent
  | file
  /-- A directory; whether this process may create and delete entries. -/
  | dir (writable : Bool) (l : Listing)

/-- The relevant part of the file system. -/
structure FileSystem where
  /-- The parent of the output directory is a directory. -/
  parentIsDir : Bool
  /-- This process may create entries in the parent directory. -/
  parentWritable : Bool
  /-- The output directory itself. -/
  out : Node

/-- `ConfigurationException`; the texts name the `throw` statement. -/
inductive Exc
  | noParent
  | noPermission
  | fileNotWritable
  | noAnswer
  | userStopped
  | testFile
  | checkpointDirectory
  deriving DecidableEq

/-- The answer of the dialogue, the variable `yes1_or_no2`. -/
inductive Answer
  | none
  | yes
  | no
  deriving DecidableEq

/-- The dialogue, `P/solver/SolverConfiguration.cpp:389-414`, from the `i`-th question on.  `input` are the lines that can still be read from
the standard input; at its end `getline` leaves the text as it is, which was neither `y` nor `n`.  `late j` says whether more than 30 seconds
of processor time have passed when question `j` was answered. -/
def dialogue (late : ℕ → Bool) (i : ℕ) (input : List String) : Answer :=
  if input.head? = some "y" then .yes
  else if input.head? = some "n" then .no
  else if h : 5 < i then .none
  else if late i then .none
  else dialogue late (i + 1) input.tail
termination_by 6 - i

/-- `directory_iterator` with opening every file for appending, `P/solver/SolverConfiguration.cpp:355-376`: some file cannot be opened. -/
def HasUnwritable (l : Listing) : Prop := ∃ name content, l name = some (.file content false)

/-- `boost::filesystem::is_empty` of the output directory, `P/solver/SolverConfiguration.cpp:380` -/
def IsEmpty (l : Listing) : Prop := ∀ name, l name = none

/-- The name of the test file of process 0, `P/solver/SolverConfiguration.cpp:435-437` -/
def testFile : String := "testfile_process.0.txt"

/-- The test file is opened (and emptied), written and closed, `P/solver/SolverConfiguration.cpp:438-441`.  A failure of the stream sets only
its state; there is no exception. -/
def writeTestFile (writable : Bool) (l : Listing) : Listing :=
  match l testFile with
  | none => if writable then Function.update l testFile (some (.file " " true)) else l
  | some (.file _ true) => Function.update l testFile (some (.file " " true))
  | _ => l

/-- `boost::filesystem::remove` of the test file, `P/solver/SolverConfiguration.cpp:442-443`: no error if it does not exist; an exception if
there is no permission or for a directory that is not empty. -/
def removeTestFile (writable : Bool) (l : Listing) : Option Listing :=
  match l testFile with
  | none => some l
  | some (.dir false) => none
  | _ => if writable then some (Function.update l testFile none) else none

/-- `create_directory(outputDir / "checkpoint")`, `P/solver/SolverConfiguration.cpp:455-456`: nothing happens if the directory exists. -/
def makeCheckpointDirectory (writable : Bool) (l : Listing) : Option Listing :=
  match l "checkpoint" with
  | some (.dir _) => some l
  | some (.file _ _) => none
  | none => if writable then some (Function.update l "checkpoint" (some (.dir true))) else none

/-- The settings used. -/
structure Settings where
  restartAtIteration : ℕ
  userInteraction : Bool

/-- The last part: test file and checkpoint directory, `P/solver/SolverConfiguration.cpp:430-463` -/
def finish (w : Bool) (l : Listing) : Except Exc Unit × Listing :=
  match removeTestFile w (writeTestFile w l) with
  | none => (.error .testFile, writeTestFile w l)
  | some l' =>
    match makeCheckpointDirectory w l' with
    | none => (.error .checkpointDirectory, l')
    | some l'' => (.ok (), l'')

open Classical in
/-- The part after the output directory exists, `P/solver/SolverConfiguration.cpp:354-463`. -/
noncomputable def prepareExisting (s : Settings) (late : ℕ → Bool) (input : List String) (w : Bool) (l : Listing) : Except Exc Unit × Listing :=
  if HasUnwritable l then (.error .fileNotWritable, l)
  else if s.restartAtIteration = 0 ∧ ¬ IsEmpty l ∧ s.userInteraction = true then
    match dialogue late 0 input with
    | .none => (.error .noAnswer, l)
    | .no => (.error .userStopped, l)
    | .yes => finish w l
  else finish w l

/-- `prepareOutputDirectory`, `P/solver/SolverConfiguration.cpp:323-465`.  A new directory can be written to. -/
noncomputable def prepare (s : Settings) (late : ℕ → Bool) (input : List String) (fs : FileSystem) : Except Exc Unit × FileSystem :=
  if fs.parentIsDir = false then (.error .noParent, fs)
  else match fs.out with
    | .file => (.error .noPermission, fs)
    | .absent =>
      if fs.parentWritable = false then (.error .noPermission, fs)
      else
        let r := prepareExisting s late input true fun _ => none
        (r.1, { fs with out := .dir true r.2 })
    | .dir w l =>
      let r := prepareExisting s late input w l
      (r.1, { fs with out := .dir w r.2 })

end OutputDirectory
end NATriuM
