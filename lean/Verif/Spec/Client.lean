import Verif.Props.Threads
/-!
# Programs that use the crate

A program opens files, looks for tables, takes them and reads parts, in whatever order, and what it does next may depend on all
that it has got so far. It may give up after a failure, try again, do something else, or go on.
-/

namespace OpenType.Spec
open OpenType OpenType.Props

/-- A program: it has a result, or does something with the tape and goes on as it sees fit when it knows what that gave. -/
inductive Client (cfg : Cfg) (ρ : Type) : Type 1 where
  | finish (result : ρ)
  | act (action : Action cfg) (next : Except Err action.Value → Client cfg ρ)

/-- Something that was done, and what it gave. -/
abbrev Entry (cfg : Cfg) := (action : Action cfg) × Except Err action.Value

/-- All that the program ever reads is read by readers of this crate. -/
def Client.Own {cfg : Cfg} {ρ : Type} : Client cfg ρ → Prop
  | .finish _ => True
  | .act action next => action.Own ∧ ∀ x, (next x).Own

/-- Running a program on a device: what it did and got, and its result. -/
def Client.exec {σ ρ : Type} {cfg : Cfg} (device : Device σ) : Client cfg ρ → σ → List (Entry cfg) × ρ
  | .finish result, _ => ([], result)
  | .act action next, s =>
    let x := action.run.exec device s
    let rest := (next x.1).exec device x.2
    (⟨action, x.1⟩ :: rest.1, rest.2)

/-- What the program does and gets, and its result, when everything is done on a tape of its own that works. -/
def Client.alone {ρ : Type} {cfg : Cfg} (d : Data) : Client cfg ρ → List (Entry cfg) × ρ
  | .finish result => ([], result)
  | .act action next =>
    let rest := (next (action.alone d)).alone d
    (⟨action, action.alone d⟩ :: rest.1, rest.2)

/-- A thread that runs a program: what it did and got so far, what remains of the action it is at, with what comes then, or of
the program. -/
structure Worker (cfg : Cfg) (ρ : Type) where
  given : List (Entry cfg)
  current : Option ((action : Action cfg) × Reader action.Value × (Except Err action.Value → Client cfg ρ))
  left : Client cfg ρ

/-- A thread that has not begun. -/
def Worker.start {cfg : Cfg} {ρ : Type} (client : Client cfg ρ) : Worker cfg ρ := ⟨[], none, client⟩

/-- A thread has its turn: it begins its next action, performs one operation of the action it is at, or takes note of what this
gave and decides what comes next. -/
def Worker.step {W ρ : Type} {cfg : Cfg} (device : Device W) : Worker cfg ρ → W → Worker cfg ρ × W
  | ⟨given, none, .finish result⟩, w => (⟨given, none, .finish result⟩, w)
  | ⟨given, none, .act action next⟩, w => (⟨given, some ⟨action, action.run, next⟩, .act action next⟩, w)
  | ⟨given, some ⟨action, r, next⟩, left⟩, w =>
    match r.result with
    | some x => (⟨given ++ [⟨action, x⟩], none, next x⟩, w)
    | none => (⟨given, some ⟨action, (r.step device w).1, next⟩, left⟩, (r.step device w).2)

/-- The threads and the world after the threads have had their turns as scheduled. -/
def turns {W ρ : Type} {cfg : Cfg} (device : Nat → Device W) :
    List Nat → (Nat → Worker cfg ρ) × W → (Nat → Worker cfg ρ) × W
  | [], x => x
  | i :: schedule, x =>
    turns device schedule (replaced x.1 i ((x.1 i).step (device i) x.2).1, ((x.1 i).step (device i) x.2).2)

/-- What a program may do: these entries are what it did and got, and what is left of it is this. -/
inductive Client.Did {ρ : Type} {cfg : Cfg} : Client cfg ρ → List (Entry cfg) → Client cfg ρ → Prop
  | nil {client} : Client.Did client [] client
  | cons {action next x entries left} : Client.Did (next x) entries left →
    Client.Did (.act action next) (⟨action, x⟩ :: entries) left

end OpenType.Spec
