import Verif.Model.Utils
/-! Model of /repo/pythoncard/framework/service/dispatcher.py. -/
namespace Verif.Model
open Verif.Py

/-- A `Dispatcher`: the dictionary `self.services`, dispatcher.py:12-15, from phase to the list
of registered services. Services are opaque objects of type `α`. -/
structure Dispatcher (α : Type) where
  services : Int → Option (List α)

namespace Dispatcher

/-- Constants, dispatcher.py:4-7. -/
def PROCESS_NONE : Int := 0
def PROCESS_INPUT_DATA : Int := 1
def PROCESS_COMMAND : Int := 2
def PROCESS_OUTPUT_DATA : Int := 3

/-- `Dispatcher.__init__`, dispatcher.py:9-15; `ServiceException.ILLEGAL_PARAM = 1`
(/repo/pythoncard/framework/service/__init__.py:9). `maxServices` is not stored. -/
def init {α} (maxServices : Int) : Except Err (Dispatcher α) :=
  if maxServices < 0 then .error (.service 1)
  else .ok ⟨fun ph =>
    if ph = PROCESS_INPUT_DATA then some []
    else if ph = PROCESS_COMMAND then some []
    else if ph = PROCESS_OUTPUT_DATA then some []
    else if ph = PROCESS_NONE then some []
    else none⟩

/-- `addService`, dispatcher.py:17-23; `none` is Python `None`. -/
def addService {α} (d : Dispatcher α) (service : Option α) (phase : Int) :
    Res (Dispatcher α) Unit :=
  match service with
  | none => (.error (.service 1), d)
  | some s =>
    match d.services phase with
    | none => (.error (.service 1), d)
    | some l => (.ok (), ⟨fun ph => if ph = phase then some (l ++ [s]) else d.services ph⟩)

/-- A history of `addService` calls. -/
def run {α} (d : Dispatcher α) (calls : List (Option α × Int)) : Dispatcher α :=
  calls.foldl (fun d c => (d.addService c.1 c.2).2) d

end Dispatcher
end Verif.Model
