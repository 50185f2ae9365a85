import Verif.FMI3

/-!
# Importer: the examples import_shared_library.c and import_static_library.c

They show how to use a library without src/FMI3.c: an FMU is instantiated for Model Exchange and freed.
-/

namespace Verif.Importer.ImportLibrary
open Verif

/-- What the programs do, in order: `dlopen` succeeds, an instance is made, it is freed, `dlclose`. examples/import_shared_library.c 31, 58, 74, 80; examples/import_static_library.c 17, 28. -/
inductive Effect
  | opened | instantiated | freed | closed
  deriving DecidableEq, Repr

/-- `INSTANTIATION_TOKEN`, examples/import_shared_library.c 17 and examples/import_static_library.c 8. -/
def token : String := "{BD403596-3166-4232-ABC2-132BDF73E644}"

variable {F D : Type} [Arith F]

/-- The calls of `fmi3InstantiateModelExchange`, examples/import_shared_library.c 58-65 and examples/import_static_library.c 17-24; true if it does not give NULL. `mem` says whether
the allocations succeed. -/
def instantiate (m : Model F D) (mem : Bool) : Bool :=
  (FMI3.instantiateModelExchange m (some "instance1") (some token) none false true mem).1.isSome

/-- A shared library: the symbols that it exports and what its functions do. What `dlopen` gives in examples/import_shared_library.c 29-31. -/
structure Library (F D : Type) where
  exports : String → Bool
  model : Model F D

/-- `main` of examples/import_shared_library.c 24-84. `library` is what `dlopen` finds (`none`: NULL). Gives the effects and whether the status is `EXIT_SUCCESS`. -/
def sharedLibrary (library : Option (Library F D)) (mem : Bool) : List Effect × Bool :=
  match library with
  | none => ([], false)
  | some l =>
    if !l.exports "fmi3InstantiateModelExchange" || !l.exports "fmi3FreeInstance" then ([.opened], false)
    else if !instantiate l.model mem then ([.opened], false)
    else ([.opened, .instantiated, .freed, .closed], true)

/-- `main` of examples/import_static_library.c 15-31 with the model that is linked. `fmi3FreeInstance` does nothing for NULL (src/cosimulation.c 113). The program tests the pointer `m` after its
block was freed, when its value is indeterminate (C11 6.2.4, paragraph 2); `test` says whether it then counts as not NULL. -/
def staticLibrary (m : Model F D) (mem test : Bool) : List Effect × Bool :=
  if instantiate m mem then ([.instantiated, .freed], test) else ([], false)

end Verif.Importer.ImportLibrary
