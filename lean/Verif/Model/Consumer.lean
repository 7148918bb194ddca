import Mathlib.Data.List.Basic

/-!
# Running analyses on a trained model

`ModelConsumer` (`meridian/schema/model_consumer.py`), `create_mmm_proto`
(`meridian/schema/mmm_proto_generator.py:62-82`), `TrainedModel` and `ModelProcessor.__call__`
(`meridian/schema/processors/model_processor.py:47-106, 351-415`).

What a processor computes from its specs is a parameter; an error of a processor is any value of `ε`.
-/

namespace Verif.Consumer

/-- Errors. -/
inductive Err (ε : Type) where
  | attribute
  | notFitted
  | duplicate
  | unknownSpec
  | wrongType
  | inner (e : ε)
deriving DecidableEq

/-- A spec: the class it was made with, and its contents. -/
structure Spec (τ α : Type) where
  cls : τ
  body : α
deriving DecidableEq

/-- A processor class: the spec type it declares, `execute`, and `_set_output`. -/
structure Proc (τ α ε ρ ο : Type) where
  specType : τ
  execute : List (Spec τ α) → Except ε ρ
  set : ρ → ο → ο

variable {τ α ε ρ ο : Type} [DecidableEq τ]

/-- The groups an inference-data object has. -/
structure Groups where
  prior : Bool
  posterior : Bool

/-- `TrainedModel.__init__`, `meridian/schema/processors/model_processor.py:50-63`.  The groups are read as
attributes, which the object has only if the group is there (arviz); they are never `None`. -/
def trained (g : Groups) : Except (Err ε) Unit :=
  if ¬ g.prior then .error .attribute
  else if ¬ g.posterior then .error .attribute
  else .ok ()

/-- `specs_by_type.setdefault(spec.__class__, []).append(spec)`. -/
def insertSpec (s : Spec τ α) : List (τ × List (Spec τ α)) → List (τ × List (Spec τ α))
  | [] => [(s.cls, [s])]
  | (t, l) :: rest => if t = s.cls then (t, l ++ [s]) :: rest else (t, l) :: insertSpec s rest

/-- The groups of specs, `meridian/schema/model_consumer.py:90-93`. -/
def group (specs : List (Spec τ α)) : List (τ × List (Spec τ α)) :=
  specs.foldl (fun acc s => insertSpec s acc) []

/-- `specs_to_processors_classes`, `meridian/schema/model_consumer.py:49-69`.  The dictionary is kept as
the list of classes; an error is raised again on every use. -/
def table (procs : List (Proc τ α ε ρ ο)) : Except (Err ε) (List (Proc τ α ε ρ ο)) :=
  if (procs.map (·.specType)).Nodup then .ok procs else .error .duplicate

/-- `_create_processor`, `meridian/schema/model_consumer.py:113-126`: the parameters handed to the
constructor (`varKw`: it has a `**` parameter). -/
def createParams {β : Type} (params : List (String × β)) (signature : List String) (varKw : Bool) :
    List (String × β) :=
  if varKw then params else params.filter fun p => signature.contains p.1

/-- `ModelProcessor.__call__`, `meridian/schema/processors/model_processor.py:399-415`; `sub a b`: class `a`
is `b` or derived from it. -/
def Proc.call (sub : τ → τ → Bool) (p : Proc τ α ε ρ ο) (specs : List (Spec τ α)) (out : ο) :
    Except (Err ε) ο :=
  if specs.all fun s => sub s.cls p.specType then
    match p.execute specs with
    | .error e => .error (.inner e)
    | .ok r => .ok (p.set r out)
  else .error .wrongType

/-- The loop over the groups, `meridian/schema/model_consumer.py:104-109`. -/
def loop (sub : τ → τ → Bool) (procs : List (Proc τ α ε ρ ο)) :
    List (τ × List (Spec τ α)) → ο → Except (Err ε) ο
  | [], out => .ok out
  | (t, l) :: rest, out =>
    match table procs with
    | .error e => .error e
    | .ok tab =>
      match tab.find? fun p => decide (p.specType = t) with
      | none => .error .unknownSpec
      | some p =>
        match p.call sub l out with
        | .error e => .error e
        | .ok out' => loop sub procs rest out'

/-- `ModelConsumer.__call__`, `meridian/schema/model_consumer.py:71-110`.  `start` is the message with the
model kernel attached. -/
def call (sub : τ → τ → Bool) (procs : List (Proc τ α ε ρ ο)) (g : Groups) (specs : List (Spec τ α))
    (start : ο) : Except (Err ε) ο :=
  match trained g with
  | .error e => .error e
  | .ok () => loop sub procs (group specs) start

/-! ### The four processors -/

/-- Spec classes: the four of the package, classes derived from one of them, and others. -/
inductive Cls where
  | modelFit
  | marketing
  | budget
  | reachFrequency
  | derived (of : Cls)
  | other (n : ℕ)
deriving DecidableEq

/-- `issubclass`. -/
def Cls.sub (a b : Cls) : Bool :=
  decide (a = b) || match a with
    | .derived c => c.sub b
    | _ => false

/-- The fields of the `Mmm` message that the processors write. -/
structure Mmm (ρ : Type) where
  kernel : String
  modelFit : Option ρ := none
  marketing : Option ρ := none
  budget : Option ρ := none
  reachFrequency : Option ρ := none
deriving DecidableEq

/-- `_TYPES`, `meridian/schema/mmm_proto_generator.py:42-47`, with the `_set_output` of each
(`model_fit_processor.py:131-132`, `marketing_processor.py:333-338`,
`budget_optimization_processor.py:370-371`, `reach_frequency_optimization_processor.py:236-239`, all in
`meridian/schema/processors`). -/
def standard (exec : Cls → List (Spec Cls α) → Except ε ρ) : List (Proc Cls α ε ρ (Mmm ρ)) :=
  [⟨.modelFit, exec .modelFit, fun r o => { o with modelFit := some r }⟩,
   ⟨.marketing, exec .marketing, fun r o => { o with marketing := some r }⟩,
   ⟨.budget, exec .budget, fun r o => { o with budget := some r }⟩,
   ⟨.reachFrequency, exec .reachFrequency, fun r o => { o with reachFrequency := some r }⟩]

/-- `create_mmm_proto`, `meridian/schema/mmm_proto_generator.py:56-82`. -/
def createProto (exec : Cls → List (Spec Cls α) → Except ε ρ) (kernel : String) (g : Groups)
    (specs : List (Spec Cls α)) : Except (Err ε) (Mmm ρ) :=
  call Cls.sub (standard exec) g specs { kernel := kernel }

end Verif.Consumer
