/-
Model of /repo/src/main.rs: the command-line program, one system call at a time.

A process is stepped by the answers of the operating system to its calls.  An answer may be an error, an
interruption, or success; a read or write may transfer fewer bytes than asked for.  Killing the process
means stopping after any number of answers, so the states after every prefix of every sequence of answers
are the states a crash can leave.

Simplifications.  The command line is already parsed (clap).  Paths are strings; a file system is a map
from paths to contents, so links and relative spellings of one path are not modelled, and no other process
changes files.  `File::create` either fails without effect or truncates/creates at once.  Log output is not
modelled.  Steps that make no system call (going from one state to the next) also consume an answer, which
they ignore.
-/
import Verif.Model.Parser
import Verif.Model.RustGen
import Verif.Model.DartGen
namespace TPB.Main

/-- main.rs 78-82 `Lang`. -/
inductive Lang where
  | rust
  | dart
  deriving DecidableEq, Repr

/-- The arguments of `generate` (main.rs 152-159). -/
structure Job where
  input : String
  output : String
  lang : Lang
  skipModels : Bool
  skipBuffers : Bool
  skipRpc : Bool
  deriving DecidableEq, Repr

/-- main.rs 35-48 `YamlParams`. -/
structure YamlParams where
  src : String
  dest : String
  skipModels : Bool
  skipBuffers : Bool
  skipRpc : Bool
  deriving DecidableEq, Repr

/-- main.rs 29-33 `YamlData`. -/
structure YamlData where
  dart : Option (List YamlParams)
  rust : Option (List YamlParams)

/-- main.rs 50-76 `Commands`. -/
inductive Command where
  | generate (j : Job)
  | yaml (path : String)

/-- External functions: those of the generators, `serde_yaml::from_str::<YamlData>` (`none`: an error) and
`Path::parent`. -/
structure Lib where
  ext : Ext
  yaml : String → Option YamlData
  parent : String → Option String

/-- Files and standard output. -/
structure World where
  files : String → Option (List UInt8)
  stdout : List UInt8

def World.setFile (w : World) (p : String) (bs : List UInt8) : World :=
  { w with files := fun q => if q = p then some bs else w.files q }

/-- The operating system's answer to one call.  `success n`: the call succeeds; a read transfers at most
`n + 1` bytes (none only at the end of the file), a write transfers at most `n` bytes. -/
inductive Answer where
  | failure
  | interrupted
  | success (n : Nat)
  deriving DecidableEq, Repr

/-- How the program ends: `Ok(())`, an `Err` returned from `main`, or a panic. -/
inductive Exit where
  | ok
  | ioError
  | panic
  deriving DecidableEq, Repr

/-- The UTF-8 bytes of a string (`as_bytes`). -/
def bytesOf (s : String) : List UInt8 := s.toUTF8.data.toList

/-- The check made by `read_to_string` (standard library): the bytes must be UTF-8. -/
def decode (bs : List UInt8) : Option String := String.fromUTF8? ⟨bs.toArray⟩

/-- main.rs 164-170: from the text of the schema to the generated text. -/
def digest (x : Ext) (j : Job) (text : String) : Except Panic String :=
  match tokenize text with
  | .error e => .error e
  | .ok ts =>
    match parse ts with
    | .error e => .error e
    | .ok ast =>
      match j.lang with
      | .rust => RustGen.generate x ast (!j.skipModels) (!j.skipBuffers) (!j.skipRpc)
      | .dart => DartGen.generate x ast (!j.skipModels) (!j.skipBuffers) (!j.skipRpc)

/-- Where `generate` is (main.rs 160-180). -/
inductive Gen where
  /-- before `File::open` (160) -/
  | opening
  /-- inside `read_to_string` (162): bytes read, bytes still in the file -/
  | reading (acc rest : List UInt8)
  /-- before `File::create` (175), with the generated bytes -/
  | creating (data : List UInt8)
  /-- inside `write_all` (176): bytes still to be written -/
  | writing (rest : List UInt8)
  /-- inside `println!` (173): bytes still to be printed -/
  | printing (rest : List UInt8)
  | ended (e : Exit)
  deriving DecidableEq, Repr

/-- One system call, as seen from outside. -/
inductive Event where
  | opened (path : String)
  | openFailed (path : String)
  | read (path : String) (bs : List UInt8)
  | readFailed (path : String)
  | created (path : String)
  | createFailed (path : String)
  | wrote (path : String) (bs : List UInt8)
  | writeFailed (path : String)
  | printed (bs : List UInt8)
  | printFailed
  deriving DecidableEq, Repr

/-- main.rs 162-175, after the last read: check the text, tokenize, parse, generate. -/
def afterRead (x : Ext) (j : Job) (acc : List UInt8) : Gen :=
  match decode acc with
  | none => .ended .ioError
  | some text =>
    match digest x j text with
    | .error _ => .ended .panic
    | .ok data => if j.output = "-" then .printing (bytesOf data ++ bytesOf "\n") else .creating (bytesOf data)

/-- main.rs 152-181 `generate`, one call.  Interrupted calls are repeated by the standard library. -/
def genStep (x : Ext) (j : Job) (w : World) : Gen → Answer → Gen × World × List Event
  | .opening, .failure => (.ended .ioError, w, [.openFailed j.input])
  | .opening, .interrupted => (.opening, w, [])
  | .opening, .success _ =>
    match w.files j.input with
    | none => (.ended .ioError, w, [.openFailed j.input])
    | some bs => (.reading [] bs, w, [.opened j.input])
  | .reading _ _, .failure => (.ended .ioError, w, [.readFailed j.input])
  | .reading acc rest, .interrupted => (.reading acc rest, w, [])
  | .reading acc [], .success _ => (afterRead x j acc, w, [.read j.input []])
  | .reading acc (b :: bs), .success n =>
    (.reading (acc ++ (b :: bs).take (n + 1)) ((b :: bs).drop (n + 1)), w, [.read j.input ((b :: bs).take (n + 1))])
  | .creating _, .failure => (.ended .ioError, w, [.createFailed j.output])
  | .creating data, .interrupted => (.creating data, w, [])
  | .creating data, .success _ => (.writing data, w.setFile j.output [], [.created j.output])
  | .writing [], _ => (.ended .ok, w, [])
  | .writing (_ :: _), .failure => (.ended .ioError, w, [.writeFailed j.output])
  | .writing (b :: bs), .interrupted => (.writing (b :: bs), w, [])
  | .writing (_ :: _), .success 0 => (.ended .ioError, w, [.wrote j.output []])
  | .writing (b :: bs), .success (n + 1) =>
    (.writing ((b :: bs).drop (n + 1)),
      w.setFile j.output ((w.files j.output).getD [] ++ (b :: bs).take (n + 1)),
      [.wrote j.output ((b :: bs).take (n + 1))])
  | .printing [], _ => (.ended .ok, w, [])
  | .printing (_ :: _), .failure => (.ended .panic, w, [.printFailed])
  | .printing (b :: bs), .interrupted => (.printing (b :: bs), w, [])
  | .printing (_ :: _), .success 0 => (.ended .panic, w, [.printFailed])
  | .printing (b :: bs), .success (n + 1) =>
    (.printing ((b :: bs).drop (n + 1)), { w with stdout := w.stdout ++ (b :: bs).take (n + 1) },
      [.printed ((b :: bs).take (n + 1))])
  | .ended e, _ => (.ended e, w, [])

/-- `Path::join` on Unix (used in main.rs 111-112, 130-131). -/
def joinPath (dir p : String) : String :=
  if p.toList.head? = some '/' then p
  else if dir = "" ∨ dir.toList.getLast? = some '/' then dir ++ p
  else dir ++ "/" ++ p

/-- main.rs 111-124 and 130-143: the call of `generate` for one item. -/
def jobOf (dir : String) (l : Lang) (item : YamlParams) : Job :=
  ⟨joinPath dir item.src, joinPath dir item.dest, l, item.skipModels, item.skipBuffers, item.skipRpc⟩

/-- main.rs 109-146: the calls of `generate`, in the order of the loops. -/
def jobsOf (dir : String) (d : YamlData) : List Job :=
  (match d.rust with
    | some items => items.map (jobOf dir .rust)
    | none => []) ++
  (match d.dart with
    | some items => items.map (jobOf dir .dart)
    | none => [])

/-- Where `main` is. -/
inductive Proc where
  /-- before `File::open(path)` (main.rs 103) -/
  | opening (path : String)
  /-- inside `read_to_string` (main.rs 105) -/
  | reading (path : String) (acc rest : List UInt8)
  /-- between two calls of `generate`, with the calls still to be made -/
  | next (js : List Job)
  /-- inside a call of `generate` -/
  | job (j : Job) (g : Gen) (js : List Job)
  | ended (e : Exit)
  deriving DecidableEq, Repr

/-- main.rs 105-109: the configuration has been read. -/
def afterConfig (lib : Lib) (path : String) (acc : List UInt8) : Proc :=
  match decode acc with
  | none => .ended .ioError
  | some text =>
    match lib.yaml text, lib.parent path with
    | some d, some dir => .next (jobsOf dir d)
    | _, _ => .ended .panic

/-- main.rs 84-150 `main`, one call. -/
def procStep (lib : Lib) (w : World) : Proc → Answer → Proc × World × List Event
  | .opening path, .failure => (.ended .ioError, w, [.openFailed path])
  | .opening path, .interrupted => (.opening path, w, [])
  | .opening path, .success _ =>
    match w.files path with
    | none => (.ended .ioError, w, [.openFailed path])
    | some bs => (.reading path [] bs, w, [.opened path])
  | .reading path _ _, .failure => (.ended .ioError, w, [.readFailed path])
  | .reading path acc rest, .interrupted => (.reading path acc rest, w, [])
  | .reading path acc [], .success _ => (afterConfig lib path acc, w, [.read path []])
  | .reading path acc (b :: bs), .success n =>
    (.reading path (acc ++ (b :: bs).take (n + 1)) ((b :: bs).drop (n + 1)), w,
      [.read path ((b :: bs).take (n + 1))])
  | .next [], _ => (.ended .ok, w, [])
  | .next (j :: js), _ => (.job j .opening js, w, [])
  | .job _ (.ended .ok) js, _ => (.next js, w, [])
  | .job _ (.ended .ioError) _, _ => (.ended .ioError, w, [])
  | .job _ (.ended .panic) _, _ => (.ended .panic, w, [])
  | .job j g js, a =>
    let (g', w', ev) := genStep lib.ext j w g a
    (.job j g' js, w', ev)
  | .ended e, _ => (.ended e, w, [])

/-- main.rs 92-103: the first state for a command. -/
def start : Command → Proc
  | .generate j => .next [j]
  | .yaml path => .opening path

/-- A running program, with everything it has done so far. -/
structure State where
  proc : Proc
  world : World
  trace : List Event

def State.step (lib : Lib) (s : State) (a : Answer) : State :=
  let (p, w, ev) := procStep lib s.world s.proc a
  ⟨p, w, s.trace ++ ev⟩

/-- The program after a sequence of answers. -/
def runFrom (lib : Lib) (s : State) (as : List Answer) : State := as.foldl (State.step lib) s

def run (lib : Lib) (c : Command) (w : World) (as : List Answer) : State :=
  runFrom lib ⟨start c, w, []⟩ as

end TPB.Main
