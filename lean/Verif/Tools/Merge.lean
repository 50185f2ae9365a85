import Verif.Chars
import Verif.Importer.BinaryPath

/-!
# The script that merges the FMUs of all platforms: `build/merge_binaries.py`

The result of the script is one FMU for all platforms. `none` stands for an exception that ends the script. What other programs give
(git, fmusim, the plot and the rendered page, the clock) are inputs of the model. A file is the list of its bytes, a path the list of its
names. Not modelled: entries of archives that the `zipfile` module renames (absolute names, `..`), archives in which one has a file
where another one has a directory, empty directories, subdirectories of the input directories, the validation of the results and the two
files that are copied beside them (lines 172-186).
-/

namespace Verif.Merge
open Verif.Importer (System Architecture)

/-- The bytes of an ASCII text; it models nothing in /repo by itself. -/
def bytes (cs : List Char) : List UInt8 := cs.map fun c => UInt8.ofNat c.toNat

/-- The path of a file in an FMU; it models nothing in /repo by itself. -/
abbrev Path := List (List UInt8)

/-- The entries of an archive or the files of a directory; it models nothing in /repo by itself. -/
abbrev Entries := List (Path × List UInt8)

/-- A file is written to a directory, in build/merge_binaries.py 79, 105, 126, 151-152 and 154. -/
def write (dir : Entries) (p : Path) (c : List UInt8) : Entries := dir.filter (fun e => e.1 ≠ p) ++ [(p, c)]

/-- A file is read, build/merge_binaries.py 70-71. -/
def read (dir : Entries) (p : Path) : Option (List UInt8) := (dir.find? fun e => e.1 = p).map (·.2)

/-- `archive.extractall(path=tempdir)`, build/merge_binaries.py 105 -/
def extractall (dir : Entries) : Entries → Entries
  | [] => dir
  | (p, c) :: es => extractall (write dir p c) es

/-- A platform, the names in build/merge_binaries.py 95-98: `x86_64-linux` is `⟨.linux, .x86_64⟩`. -/
structure Platform where
  sys : System
  arch : Architecture
  deriving DecidableEq, Repr

/-- `platforms`, build/merge_binaries.py 95-98 -/
def platforms (major : Nat) : List Platform :=
  [⟨.windows, .x86⟩, ⟨.windows, .x86_64⟩, ⟨.linux, .x86_64⟩, ⟨.darwin, .x86_64⟩] ++
    if major = 3 then [⟨.linux, .aarch64⟩, ⟨.darwin, .aarch64⟩] else []

/-- `FMI_PLATFORM`, CMakeLists.txt 43-70, the directory for the library of the FMU (176-187). `none` is the fatal error in 67. -/
def fmiPlatform (major : Nat) (p : Platform) : Option (List UInt8) :=
  if major > 2 then
    some ((match p.arch with
      | .aarch64 => bytes (chars! "aarch64")
      | .x86_64 => bytes (chars! "x86_64")
      | .x86 => bytes (chars! "x86")) ++
    match p.sys with
      | .windows => bytes (chars! "-windows")
      | .darwin => bytes (chars! "-darwin")
      | .linux => bytes (chars! "-linux"))
  else
    let name := match p.sys with
      | .windows => bytes (chars! "win")
      | .darwin => bytes (chars! "darwin")
      | .linux => bytes (chars! "linux")
    match p.arch with
    | .x86_64 => some (name ++ bytes (chars! "64"))
    | .x86 => some (name ++ bytes (chars! "32"))
    | .aarch64 => none

/-- The output of the three git commands in build/merge_binaries.py 55-65. Commands that fail and texts that are not ASCII (both end the
script) are not modelled. -/
structure Git where
  status : List UInt8
  tags : List UInt8
  hash : List UInt8

/-- The whitespace among the ASCII characters, for `strip()` in build/merge_binaries.py 56, 61 and 65. -/
def isSpace (c : UInt8) : Bool := (9 ≤ c ∧ c ≤ 13) || (28 ≤ c ∧ c ≤ 32)

/-- `strip()`, build/merge_binaries.py 56, 61 and 65 -/
def strip (t : List UInt8) : List UInt8 := ((t.dropWhile isSpace).reverse.dropWhile isSpace).reverse

/-- The translation of line ends when a file is read as text, build/merge_binaries.py 70-71. The text is kept as UTF-8. -/
def universal : List UInt8 → List UInt8
  | [] => []
  | 13 :: 10 :: r => 10 :: universal r
  | 13 :: r => 10 :: universal r
  | c :: r => c :: universal r

/-- `lines.replace(old, new)`, build/merge_binaries.py 75-76, after `skip` characters that belong to the last occurrence. -/
def replace (old new : List UInt8) : (skip : Nat) → List UInt8 → List UInt8
  | _, [] => []
  | skip + 1, _ :: r => replace old new skip r
  | 0, c :: r => if old.isPrefixOf (c :: r) then new ++ replace old new (old.length - 1) r else c :: replace old new 0 r

/-- The replaced text, build/merge_binaries.py 75 -/
def development : List UInt8 := bytes (chars! "\"Reference FMUs (development build)\"")

/-- The new text, build/merge_binaries.py 76 -/
def generation (version date : List UInt8) : List UInt8 :=
  bytes (chars! "\"Reference FMUs (") ++ version ++ bytes (chars! ")\"\n  generationDateAndTime=\"") ++ date ++ bytes (chars! "\"")

/-- `modelDescription.xml` in the directory, build/merge_binaries.py 157 -/
def modelDescription : Path := [bytes (chars! "modelDescription.xml")]

/-- `set_tool_version`, build/merge_binaries.py 49-79. `date` is `datetime.now(pytz.utc).isoformat()`. -/
def setToolVersion (git : Git) (date : List UInt8) (dir : Entries) : Option Entries :=
  if strip git.status ≠ [] then some dir
  else
    let version := if strip git.tags = [] then strip git.hash else strip git.tags
    if version = [] then some dir
    else match read dir modelDescription with
      | none => none
      | some text => some (write dir modelDescription (replace development (generation version date) 0 (universal text)))

/-- What the script creates for the directory `documentation`, build/merge_binaries.py 107-154: the plot of a simulation, the page, and
the drawings of the model. -/
structure Report where
  plot : List UInt8
  page : List UInt8
  drawings : List (List UInt8 × List UInt8)

/-- The directory `documentation`, build/merge_binaries.py 110 -/
def documentation : List UInt8 := bytes (chars! "documentation")

/-- The files of the report are written, build/merge_binaries.py 110-154. -/
def document (dir : Entries) (r : Report) : Entries :=
  extractall dir (([documentation, bytes (chars! "result.svg")], r.plot) :: ([documentation, bytes (chars! "index.html")], r.page) ::
    r.drawings.map fun d => ([documentation, d.1], d.2))

/-- The keys of `parameters`, build/merge_binaries.py 24-46 -/
def parameters : List (List UInt8) :=
  [bytes (chars! "BouncingBall"), bytes (chars! "Dahlquist"), bytes (chars! "Feedthrough"), bytes (chars! "StateSpace"),
    bytes (chars! "Resource"), bytes (chars! "Stair"), bytes (chars! "VanDerPol")]

/-- What the script finds: the names of the files in `dist-x86_64-windows/<version>` (build/merge_binaries.py 84-86), the FMUs of all
platforms (102-104), what is created for the documentation (`none` if one of the steps in 107-154 fails), the repository and the time. -/
structure World where
  listing : List (List UInt8)
  fmu : Platform → List UInt8 → Option Entries
  report : List UInt8 → Option Report
  git : Git
  date : List UInt8

/-- The FMUs of all platforms are extracted to the same directory, build/merge_binaries.py 100-105. -/
def extractPlatforms (w : World) (filename : List UInt8) : List Platform → Entries → Option Entries
  | [], dir => some dir
  | p :: ps, dir => match w.fmu p filename with
    | none => none
    | some archive => extractPlatforms w filename ps (extractall dir archive)

/-- One FMU, build/merge_binaries.py 91-165: the entries of the merged FMU. `os.path.splitext` removes the last four characters, `.fmu`. -/
def mergeOne (w : World) (major : Nat) (filename : List UInt8) : Option Entries :=
  match extractPlatforms w filename (platforms major) [] with
  | none => none
  | some dir =>
    let model := filename.take (filename.length - 4)
    if parameters.contains model then
      match w.report model with
      | none => none
      | some r => setToolVersion w.git w.date (document dir r)
    else some dir

/-- The loop of `merge_fmus`, build/merge_binaries.py 86-165: the merged FMUs. -/
def mergeAll (w : World) (major : Nat) : List (List UInt8) → Option (List (List UInt8 × Entries))
  | [] => some []
  | f :: fs =>
    if (bytes (chars! ".fmu")).isSuffixOf f then
      match mergeOne w major f with
      | none => none
      | some m => (mergeAll w major fs).map ((f, m) :: ·)
    else mergeAll w major fs

/-- `merge_fmus`, build/merge_binaries.py 82-165 -/
def mergeFmus (w : World) (major : Nat) : Option (List (List UInt8 × Entries)) := mergeAll w major w.listing

end Verif.Merge
