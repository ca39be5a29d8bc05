import Verif.Model.Files

/-!
# Several runs in one directory at the same time (`initializer/initializer.py` 153-189)

What the statements `with open(name, 'w') as f: …` do to the files, seen from other processes: `open` empties the file or creates it, and the text is
written in pieces of any size (whenever the buffer is full, and at the end of the block), each at the position the process has reached in its own text.
Nothing is locked. This is the behaviour of POSIX files; the pieces are written at once.
-/

namespace HLC.Init

section
variable {ν β ι : Type}

/-- What a process asks of the file system. -/
inductive SysCall (ν β : Type)
  | create (name : ν)
  | write (name : ν) (off : ℕ) (bytes : List β)

/-- The file it is about. -/
def SysCall.name : SysCall ν β → ν
  | .create n => n
  | .write n _ _ => n

/-- The texts of the files that exist. -/
abbrev Disk (ν β : Type) := ν → Option (List β)

/-- Writing at a position: bytes before and after stay; if the file is shorter, it is filled up with zeros. -/
def writeAt (z : β) (file : List β) (off : ℕ) : List β → List β
  | [] => file
  | b :: bs => file.take off ++ List.replicate (off - file.length) z ++ (b :: bs) ++ file.drop (off + (b :: bs).length)

/-- The files after a call; `z` is the byte zero. -/
def SysCall.apply [DecidableEq ν] (z : β) (disk : Disk ν β) : SysCall ν β → Disk ν β
  | .create n => Function.update disk n (some [])
  | .write n off bytes => Function.update disk n (some (writeAt z ((disk n).getD []) off bytes))

/-- The calls that write a text in pieces, from a position on. -/
def writes (name : ν) : ℕ → List (List β) → List (SysCall ν β)
  | _, [] => []
  | off, c :: cs => .write name off c :: writes name (off + c.length) cs

/-- `with open(name, 'w') as f: …` (`initializer/initializer.py` 153-189), with the pieces in which the text is written. -/
def writeFile (name : ν) (pieces : List (List β)) : List (SysCall ν β) := .create name :: writes name 0 pieces

/-- The calls of several processes in the order in which they reach the file system: each process makes its own calls in order. -/
inductive Interleaved [DecidableEq ι] {α : Type} : (ι → List α) → List α → Prop
  | done {p : ι → List α} (h : ∀ i, p i = []) : Interleaved p []
  | step {p : ι → List α} (i : ι) {a : α} {as t : List α} (h : p i = a :: as) (r : Interleaved (Function.update p i as) t) : Interleaved p (a :: t)

/-- Two processes. -/
def two {α : Type} (c₀ c₁ : List α) : Bool → List α
  | false => c₀
  | true => c₁

end

/-- The calls of a run that writes complete files (`makeHouseRun`): `text c` is the text of the contents `c`, written in any pieces. -/
inductive Performs {β : Type} (text : Content → List β) : List Effect → List (SysCall FileName β) → Prop
  | nil : Performs text [] []
  | file {n : FileName} {c : Content} {es : List Effect} {cs : List (SysCall FileName β)} (pieces : List (List β)) (h : pieces.flatten = text c)
      (r : Performs text es cs) : Performs text (.opened n :: .closed n c :: es) (writeFile n pieces ++ cs)

/-- The directory as the calculation reads it: `parse` is what the text of a file means. -/
def Disk.dir {β : Type} (parse : List β → Content) (disk : Disk FileName β) : Dir := fun n => (disk n).map parse

end HLC.Init
