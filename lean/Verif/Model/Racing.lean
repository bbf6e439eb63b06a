import Verif.Model.Interrupt
import Verif.Model.Formats
/-!
# Threads that share a base scheduler (`src/synthpix/scheduler/base.py`, `hdf5.py`, `mat.py`, `numpy.py`)

Any number of threads call `_get_next` (in `get_batch`) and `reset` of one scheduler, which has no lock. Every read and every write of an attribute is a step of its own;
between two of them any other thread may run.
-/

namespace Verif.Racing
open Verif Verif.Base Verif.Formats
open Verif.Interrupt (Raw)

variable {V D Key : Type}

/-- `get_next_slice` as the sequence of its reads of `_cached_file`, `_cached_data` and `_slice_idx`. -/
inductive Prog (V D : Type) where
  | file (k : Option String → Prog V D)
  | data (k : Option D → Prog V D)
  | idx (k : Nat → Prog V D)
  | ret (r : SliceRes V)

/-- The program without other threads. -/
def Prog.eval (p : Option String) (d : Option D) (i : Nat) : Prog V D → SliceRes V
  | .file k => (k p).eval p d i
  | .data k => (k d).eval p d i
  | .idx k => (k i).eval p d i
  | .ret r => r

/-- `get_next_slice` of the MAT scheduler (mat.py lines 194-202). -/
def matProg (c : MatCfg) : Prog Rat (Sample Rat) :=
  .data fun d =>
    match d with
    | none => .ret (.fail .runtimeError)
    | some d => .idx fun i => .ret (if i ≠ 0 then .ended else if c.includeImages then .ok d else .ok { d with images1 := none, images2 := none })

/-- `get_next_slice` of the HDF5 scheduler (hdf5.py lines 72-82). `None.flow_fields` raises `AttributeError`, an index beyond the second axis `IndexError`. A name that
is `None` by the time it is read (line 81) is written as the empty string. -/
def h5Prog : Prog V (Arr V) :=
  .data fun d0 => if d0.isNone then .ret (.fail .runtimeError)
  else .file fun p0 => if p0.isNone then .ret (.fail .runtimeError)
  else .idx fun i0 => .data fun d1 =>
    match d1 with
    | none => .ret (.fail .attributeError)
    | some a1 =>
      match a1.shape[1]? with
      | none => .ret (.fail .indexError)
      | some Y =>
        if Y ≤ i0 then .ret .ended
        else .data fun d2 =>
          match d2 with
          | none => .ret (.fail .attributeError)
          | some a2 => .idx fun i2 =>
            if a2.shape.getD 1 0 ≤ i2 then .ret (.fail .indexError)
            else
              match h5Slice a2 i2 with
              | .error e => .ret (.fail e)
              | .ok f => .file fun p => .ret (.ok ⟨f, none, none, some [p.getD ""]⟩)

/-- `load_file` of the NumPy scheduler (numpy.py lines 79-88): the name goes with the array. -/
def npLoad (io : NpIO V) (p : String) : Except Exc (Sample V) := (io.npy p).map (fun a => ⟨a, none, none, some [p]⟩)

/-- `get_next_slice` of the NumPy scheduler (numpy.py lines 96-117): the file name is read again for the number and for the directory. `os.path` raises `TypeError` for
`None`. -/
def npProg (io : NpIO V) (includeImages : Bool) : Prog V (Sample V) :=
  .data fun d0 =>
    match d0 with
    | none => .ret (.fail .runtimeError)
    | some d => .file fun p0 => if p0.isNone then .ret (.fail .runtimeError)
      else .idx fun i => if i ≠ 0 then .ret .ended
      else if includeImages then
        .file fun p1 =>
          match p1 with
          | none => .ret (.fail .typeError)
          | some p1 =>
            match parseFlowName (basename p1.toList) with
            | none => .ret (.fail .valueError)
            | some t => .file fun p2 =>
              match p2 with
              | none => .ret (.fail .typeError)
              | some p2 =>
                match io.rgb (String.ofList (imgPath (dirname p2.toList) ((t : Int) - 1))), io.rgb (String.ofList (imgPath (dirname p2.toList) t)) with
                | .ok x, .ok y => .ret (.ok { d with images1 := some x, images2 := some y })
                | .error e, _ => .ret (.fail e)
                | _, .error e => .ret (.fail e)
      else .ret (.ok { d with images1 := none, images2 := none })

/-- What a scheduler calls out to (as `Base.World`), with `get_next_slice` as a program. -/
structure RWorld (V D Key : Type) where
  load : String → Except Exc D
  prog : Prog V D
  split : Key → Key × Key
  perm : Key → Nat → List Nat

/-- The same without other threads. -/
def RWorld.alone (w : RWorld V D Key) : World V D Key where
  load := w.load
  slice p d i := w.prog.eval (some p) (some d) i
  split := w.split
  perm := w.perm

/-- The next thing a thread does. -/
inductive TPc (V D Key : Type) where
  /-- no call -/
  | idle
  /-- the test of the `while` loop (base.py line 165). The length of `file_list` never changes here, so that `index` is the only thing read. -/
  | test
  /-- `if self.index >= len(self.file_list)` (line 167) -/
  | wrap
  /-- `reset`, called in the loop (`true`) or by the user (`false`): the assignments of lines 143-146 -/
  | resetIndex (inner : Bool)
  | resetSlice (inner : Bool)
  | resetData (inner : Bool)
  | resetFile (inner : Bool)
  /-- line 148: the key is read ... -/
  | readKey (inner : Bool)
  /-- ... and stored -/
  | storeKey (inner : Bool) (key : Key)
  /-- lines 149-152: `self.file_list[i]` for each index, with the indices to come and the names so far -/
  | gather (inner : Bool) (todo : List Nat) (names : List String)
  /-- line 171: `self.file_list` is read ... -/
  | readList
  /-- ... and then `self.index` -/
  | readPath (l : List String)
  /-- `self._cached_file != path` (line 174) -/
  | compare (path : String)
  /-- lines 175-180 -/
  | dropFile (path : String)
  | dropData (path : String)
  | load (path : String)
  | setFile (path : String)
  | setSlice
  /-- `get_next_slice` (line 187) -/
  | slice (p : Prog V D)
  /-- `self._slice_idx += 1` (line 188): read, write -/
  | readSlice (x : Sample V)
  | storeSlice (x : Sample V) (i : Nat)
  /-- `self.index += 1` (lines 183 and 191): read, write -/
  | readIndex
  | storeIndex (i : Nat)
  /-- the call of `_get_next` is over -/
  | done (r : Next V)

/-- What follows `reset`. -/
def afterReset (inner : Bool) : TPc V D Key := if inner then .readList else .idle

/-- One step of a thread. -/
def rstep (w : RWorld V D Key) (c : Cfg) : TPc V D Key × Raw D Key → TPc V D Key × Raw D Key
  | (.idle, s) => (.idle, s)
  | (.test, s) => (if s.index < s.fileList.length ∨ c.loop = true then .wrap else .done .stop, s)
  | (.wrap, s) => (if s.fileList.length ≤ s.index then .resetIndex true else .readList, s)
  | (.resetIndex b, s) => (.resetSlice b, { s with index := 0 })
  | (.resetSlice b, s) => (.resetData b, { s with sliceIdx := 0 })
  | (.resetData b, s) => (.resetFile b, { s with cachedData := none })
  | (.resetFile b, s) => (if c.randomize then .readKey b else afterReset b, { s with cachedFile := none })
  | (.readKey b, s) => (.storeKey b s.key, s)
  | (.storeKey b key, s) => (.gather b (w.perm (w.split key).2 s.fileList.length) [], { s with key := (w.split key).1 })
  | (.gather b [] names, s) => (afterReset b, { s with fileList := names })
  | (.gather b (i :: todo) names, s) => (.gather b todo (names ++ [s.fileList.getD i ""]), s)
  | (.readList, s) => (.readPath s.fileList, s)
  | (.readPath l, s) =>
    match l[s.index]? with
    | none => (.done (.raise .indexError), s)
    | some path => (.compare path, s)
  | (.compare path, s) => (if s.cachedFile = some path then .slice w.prog else .dropFile path, s)
  | (.dropFile path, s) => (.dropData path, { s with cachedFile := none })
  | (.dropData path, s) => (.load path, { s with cachedData := none })
  | (.load path, s) =>
    match w.load path with
    | .ok d => (.setFile path, { s with cachedData := some d })
    | .error _ => (.readIndex, s)
  | (.setFile path, s) => (.setSlice, { s with cachedFile := some path })
  | (.setSlice, s) => (.slice w.prog, { s with sliceIdx := 0 })
  | (.slice (.file k), s) => (.slice (k s.cachedFile), s)
  | (.slice (.data k), s) => (.slice (k s.cachedData), s)
  | (.slice (.idx k), s) => (.slice (k s.sliceIdx), s)
  | (.slice (.ret (.ok x)), s) => (.readSlice x, s)
  | (.slice (.ret .ended), s) => (.readIndex, s)
  | (.slice (.ret (.fail e)), s) => (.done (.raise e), s)
  | (.readSlice x, s) => (.storeSlice x s.sliceIdx, s)
  | (.storeSlice x i, s) => (.done (.ret x), { s with sliceIdx := i + 1 })
  | (.readIndex, s) => (.storeIndex s.index, s)
  | (.storeIndex i, s) => (.test, { s with index := i + 1 })
  | (.done r, s) => (.done r, s)

/-- All threads, what they share, and how their calls have ended so far. -/
structure RSt (V D Key : Type) where
  shared : Raw D Key
  pc : Nat → TPc V D Key
  out : List (Nat × Next V)

/-- What the threads can do: begin a call of `_get_next` or `reset`, go on with it, take its result. -/
inductive Act where
  | call (i : Nat)
  | reset (i : Nat)
  | step (i : Nat)
  | take (i : Nat)
  deriving DecidableEq, Repr

/-- The place of one thread is changed. -/
def setPc (pc : Nat → TPc V D Key) (i : Nat) (x : TPc V D Key) : Nat → TPc V D Key := fun j => if j = i then x else pc j

/-- One action; nothing happens if it is not possible. -/
def ract (w : RWorld V D Key) (c : Cfg) (s : RSt V D Key) : Act → RSt V D Key
  | .call i =>
    match s.pc i with
    | .idle => { s with pc := setPc s.pc i .test }
    | _ => s
  | .reset i =>
    match s.pc i with
    | .idle => { s with pc := setPc s.pc i (.resetIndex false) }
    | _ => s
  | .step i => { s with shared := (rstep w c (s.pc i, s.shared)).2, pc := setPc s.pc i (rstep w c (s.pc i, s.shared)).1 }
  | .take i =>
    match s.pc i with
    | .done r => { s with pc := setPc s.pc i .idle, out := s.out ++ [(i, r)] }
    | _ => s

/-- A schedule. -/
def rrun (w : RWorld V D Key) (c : Cfg) : List Act → RSt V D Key → RSt V D Key
  | [], s => s
  | a :: as, s => rrun w c as (ract w c s a)

/-- Before any call, with the attributes `s`. -/
def rinit (s : Raw D Key) : RSt V D Key := { shared := s, pc := fun _ => .idle, out := [] }

end Verif.Racing
