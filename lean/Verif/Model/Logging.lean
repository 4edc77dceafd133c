import Verif.Model.Sockets
/-!
# `src/log/logger.rs` and the parts of `std::sync::Once` and the crate `log` it uses

Several threads run: they call `Logger::init`, install another logger of the application with `log::set_logger`, and log
records with the `log` macros. The steps of all threads interleave. From `std` and the crate `log` (version 0.4):

* `Once::call_once` runs the closure if the `Once` is new; if another thread runs it, it waits; if it is complete it
  returns; if the closure panicked, it panics (poisoning).
* `log::set_logger` changes the state of the crate from uninitialized to initializing in one atomic step, then writes the logger
  and sets the state to initialized; if it finds the state initializing it spins until that is over; it fails if the
  state was not uninitialized.
* A `log` macro compares the level with the maximal level (initially off) and, if that allows it, gives the record to the
  logger if the state is initialized, and drops it otherwise.
-/
namespace Uecho.Logging
open Sock (Level)

/-- Which logger: the one of this library (the static `LOGGER`, src/log/logger.rs:27-29) or one of the application. -/
inductive Which where
  | uecho
  | other
deriving DecidableEq, Repr

/-- State of `INIT` (src/log/logger.rs:20). -/
inductive OnceState where
  | new
  | running (by_ : Nat)
  | complete
  | poisoned
deriving DecidableEq, Repr

/-- State of the crate `log`. -/
inductive Facade where
  | uninitialized
  | initializing (by_ : Nat) (w : Which)
  | initialized (w : Which)
deriving DecidableEq, Repr

/-- The calls a thread makes: `Logger::init` (src/log/logger.rs:46-52), `log::set_logger` with another logger, a `log`
macro. -/
inductive Call where
  | init
  | install
  | record (l : Level) (text : List Char)
deriving DecidableEq, Repr

/-- How a call ends: `init` returns or panics, `set_logger` succeeds or fails, a record was given to a logger which wrote it, or
to none. -/
inductive Outcome where
  | returned
  | panicked
  | installed (ok : Bool)
  | written (by_ : Option Which)
deriving DecidableEq, Repr

/-- Where a thread is. -/
inductive Pc where
  | idle
  /-- in `INIT.call_once` -/
  | once
  /-- in `log::set_logger`, before it looks at the state; called by the closure of `init` (`uecho`) or the application -/
  | setLogger (w : Which)
  /-- in `log::set_logger`, after it changed the state to initializing -/
  | writing (w : Which)
  /-- in the closure, after `set_logger` succeeded: before `set_max_level` (src/log/logger.rs:49) -/
  | maxLevel
  /-- in the closure, done: before `call_once` marks the `Once` complete -/
  | completing
  /-- in the closure, which has panicked in `expect` (src/log/logger.rs:50) -/
  | unwinding
  /-- in a `log` macro, before it looks at the maximal level -/
  | compare (l : Level) (text : List Char)
  /-- in a `log` macro, after the comparison -/
  | give (l : Level) (text : List Char) (pass : Bool)
deriving DecidableEq, Repr

/-- The process. -/
structure World where
  once : OnceState
  facade : Facade
  maxLevel : Nat
  pc : Nat → Pc

/-- A process that has just started: no logger, maximal level off. -/
def World.start : World := ⟨.new, .uninitialized, 0, fun _ => .idle⟩

/-- What can be observed, and of which thread. -/
inductive Event where
  | called (t : Nat) (c : Call)
  | ended (t : Nat) (c : Call) (o : Outcome)
deriving DecidableEq, Repr

/-- The thread an event belongs to. -/
def Event.thread : Event → Nat
  | .called t _ => t
  | .ended t _ _ => t

def World.set (w : World) (t : Nat) (p : Pc) : World := { w with pc := fun u => if u = t then p else w.pc u }

/-- `Logger::enabled` (src/log/logger.rs:56-58) of the static `LOGGER`, whose level is `Trace` (src/log/logger.rs:27-29) and
cannot be changed: `Logger::shared` gives out a shared reference (src/log/logger.rs:38-40) and `set_level` needs an
exclusive one (src/log/logger.rs:42-44). -/
def enabled (l : Level) : Bool := l.num ≤ Level.trace.num

/-- `Logger::log` (src/log/logger.rs:60-70), or the other logger, which we let write everything. -/
def writtenBy (w : Which) (l : Level) : Option Which :=
  match w with
  | .uecho => if enabled l then some .uecho else none
  | .other => some .other

/-- One step of thread `t`, with the event observed, if any. -/
inductive Step (t : Nat) (w : World) : Option Event → World → Prop where
  /-- a thread makes a call -/
  | callInit (h : w.pc t = .idle) : Step t w (some (.called t .init)) (w.set t .once)
  | callInstall (h : w.pc t = .idle) : Step t w (some (.called t .install)) (w.set t (.setLogger .other))
  | callRecord (h : w.pc t = .idle) (l : Level) (x : List Char) :
      Step t w (some (.called t (.record l x))) (w.set t (.compare l x))
  /-- `call_once` on a new `Once`: runs the closure (src/log/logger.rs:47-51) -/
  | onceNew (h : w.pc t = .once) (ho : w.once = .new) : Step t w none ({ w with once := .running t }.set t (.setLogger .uecho))
  /-- `call_once` when the closure has been run -/
  | onceDone (h : w.pc t = .once) (ho : w.once = .complete) : Step t w (some (.ended t .init .returned)) (w.set t .idle)
  /-- `call_once` when the closure has panicked -/
  | oncePoisoned (h : w.pc t = .once) (ho : w.once = .poisoned) :
      Step t w (some (.ended t .init .panicked)) (w.set t .idle)
  /-- `set_logger` finds no logger -/
  | claim (which : Which) (h : w.pc t = .setLogger which) (hf : w.facade = .uninitialized) :
      Step t w none ({ w with facade := .initializing t which }.set t (.writing which))
  /-- and writes it: called by the closure, -/
  | wroteOwn (h : w.pc t = .writing .uecho) : Step t w none ({ w with facade := .initialized .uecho }.set t .maxLevel)
  /-- or by the application -/
  | wroteOther (h : w.pc t = .writing .other) :
      Step t w (some (.ended t .install (.installed true))) ({ w with facade := .initialized .other }.set t .idle)
  /-- `set_logger` finds a logger: the closure panics (src/log/logger.rs:50), -/
  | refusedOwn (w' : Which) (h : w.pc t = .setLogger .uecho) (hf : w.facade = .initialized w') :
      Step t w none (w.set t .unwinding)
  /-- the application gets an error -/
  | refusedOther (w' : Which) (h : w.pc t = .setLogger .other) (hf : w.facade = .initialized w') :
      Step t w (some (.ended t .install (.installed false))) (w.set t .idle)
  /-- `set_max_level(Trace)` (src/log/logger.rs:49) -/
  | raise (h : w.pc t = .maxLevel) : Step t w none ({ w with maxLevel := Level.trace.num }.set t .completing)
  /-- the `Once` becomes complete and `init` returns, -/
  | complete (h : w.pc t = .completing) :
      Step t w (some (.ended t .init .returned)) ({ w with once := .complete }.set t .idle)
  /-- or becomes poisoned, and the panic goes on -/
  | poison (h : w.pc t = .unwinding) :
      Step t w (some (.ended t .init .panicked)) ({ w with once := .poisoned }.set t .idle)
  /-- a `log` macro compares the level with the maximal level, -/
  | compared (l : Level) (x : List Char) (h : w.pc t = .compare l x) :
      Step t w none (w.set t (.give l x (l.num ≤ w.maxLevel)))
  /-- and gives the record to the logger, if there is one, -/
  | given (which : Which) (l : Level) (x : List Char) (h : w.pc t = .give l x true) (hf : w.facade = .initialized which) :
      Step t w (some (.ended t (.record l x) (.written (writtenBy which l)))) (w.set t .idle)
  /-- or drops it -/
  | dropped (l : Level) (x : List Char) (p : Bool) (h : w.pc t = .give l x p)
      (hf : p = false ∨ ∀ which, w.facade ≠ .initialized which) :
      Step t w (some (.ended t (.record l x) (.written none))) (w.set t .idle)

/-- Executions of the process from its start, with the events in order. -/
inductive Runs : List Event → World → Prop where
  | start : Runs [] World.start
  | step {tr : List Event} {w w' : World} {t : Nat} {e : Option Event} (h : Runs tr w) (h' : Step t w e w') :
      Runs (tr ++ e.toList) w'

end Uecho.Logging
