import Verif.Model.Factory
/-!
# The common interface: `implicit/recommender_base.py` and the classes that implement it

Signatures of the methods of `RecommenderBase` and of every class, and the calls that a class refuses with
`NotImplementedError`.  `self` / `cls` is left out of the signatures.  What the methods compute is modelled elsewhere.
-/

namespace Implicit

open Spec (Call)

/-- The methods of `RecommenderBase` (`implicit/recommender_base.py:8-215`). -/
inductive ApiMethod where
  | fit | recommend | similarUsers | similarItems | save | load | rankItems
  deriving DecidableEq

/-- The classes that do not wrap another model. -/
inductive ApiClass where
  | cpuAls | cpuBpr | cpuLmf | gpuAls | gpuBpr | itemItem | cosine | tfidf | bm25
  deriving DecidableEq

/-- The classes that wrap a factor model (`implicit/ann/annoy.py`, `implicit/ann/nmslib.py`, `implicit/ann/faiss.py`). -/
inductive ApproxClass where
  | annoy | nmslib | faiss
  deriving DecidableEq

/-- A model: a class, or an approximate class around a model with its two switches `approximate_similar_items` and
`approximate_recommend` (`implicit/ann/annoy.py:45-61`). -/
inductive ApiModel where
  | plain (cls : ApiClass)
  | approximate (cls : ApproxClass) (inner : ApiClass) (similar recommend : Bool)

/-- A required parameter. -/
def req (name : String) : PName × Option ArgVal := (.other name, none)

/-- A parameter with a default. -/
def opt (name : String) (v : ArgVal) : PName × Option ArgVal := (.other name, some v)

/-- A method without `*args`, `**kwargs` and keyword-only parameters. -/
def plainSig (ps : List (PName × Option ArgVal)) : PySig := ⟨ps, [], false, false⟩

/-- `fit(<matrix>, show_progress=True, callback=None)`. -/
def fitSig (matrix : String) : PySig := plainSig [req matrix, opt "show_progress" (.bool true), opt "callback" .none]

/-- `recommend` (`implicit/recommender_base.py:33-42`). -/
def recommendSig : PySig := plainSig [req "userid", req "user_items", opt "N" (.num 10),
  opt "filter_already_liked_items" (.bool true), opt "filter_items" .none, opt "recalculate_user" (.bool false), opt "items" .none]

/-- `similar_users` (`implicit/recommender_base.py:101`). -/
def similarUsersSig : PySig := plainSig [req "userid", opt "N" (.num 10), opt "filter_users" .none, opt "users" .none]

/-- `similar_items` (`implicit/recommender_base.py:124-126`). -/
def similarItemsSig : PySig := plainSig [req "itemid", opt "N" (.num 10), opt "recalculate_item" (.bool false),
  opt "item_users" .none, opt "filter_items" .none, opt "items" .none]

/-- `rank_items` (`implicit/recommender_base.py:203`). -/
def rankItemsSig : PySig := plainSig [req "userid", req "user_items", req "selected_items", opt "recalculate_user" (.bool false)]

/-- The signatures of `RecommenderBase` (`implicit/recommender_base.py:16,33,101,124,158,173,203`). -/
def baseSig : ApiMethod → PySig
  | .fit => fitSig "user_items"
  | .recommend => recommendSig
  | .similarUsers => similarUsersSig
  | .similarItems => similarItemsSig
  | .save => plainSig [req "file"]
  | .load => plainSig [req "fileobj_or_path"]
  | .rankItems => rankItemsSig

/-- The name of the first parameter of `fit`: `implicit/cpu/als.py:97`, `implicit/cpu/bpr.pyx:122`, `implicit/cpu/lmf.pyx:112`,
`implicit/gpu/als.py:81`, `implicit/gpu/bpr.py:69`, `implicit/nearest_neighbours.py:30,190,198,211`, `implicit/ann/annoy.py:66`,
`implicit/ann/nmslib.py:74`, `implicit/ann/faiss.py:76`. -/
def fitMatrixName : ApiModel → String
  | .plain .cpuAls | .plain .cpuBpr | .plain .cpuLmf | .plain .gpuAls | .plain .gpuBpr => "user_items"
  | .plain .itemItem => "weighted"
  | .plain .cosine | .plain .tfidf | .plain .bm25 => "counts"
  | .approximate _ _ _ _ => "Cui"

/-- The parameter of `save`: `implicit/cpu/als.py:457`, `implicit/cpu/bpr.pyx:228`, `implicit/cpu/lmf.pyx:201`,
`implicit/nearest_neighbours.py:160`, `implicit/gpu/matrix_factorization_base.py:214`, `implicit/ann/annoy.py:240`,
`implicit/ann/nmslib.py:243`, `implicit/ann/faiss.py:284`. -/
def saveParamName : ApiModel → String
  | .plain .gpuAls | .plain .gpuBpr | .approximate _ _ _ _ => "file"
  | .plain _ => "fileobj_or_path"

/-- The parameter of `load`: `implicit/recommender_base.py:173` (CPU factor models), `implicit/nearest_neighbours.py:170`,
`implicit/gpu/matrix_factorization_base.py:211`, `implicit/ann/annoy.py:244`, `implicit/ann/nmslib.py:247`,
`implicit/ann/faiss.py:288`. -/
def loadParamName : ApiModel → String
  | .plain .gpuAls | .plain .gpuBpr | .approximate _ _ _ _ => "file"
  | .plain _ => "fileobj_or_path"

/-- The signature of a method as the class has it.  `recommend`, `similar_users` and `similar_items` are defined in
`implicit/cpu/matrix_factorization_base.py:34-43,148,177-179`, `implicit/gpu/matrix_factorization_base.py:34-43,125,162-164`,
`implicit/nearest_neighbours.py:43-52,107,110-112`, `implicit/ann/annoy.py:95-97,151-160,234`,
`implicit/ann/nmslib.py:114-116,159-168,237`, `implicit/ann/faiss.py:132-134,180-189,278`; `rank_items` is inherited. -/
def classSig (model : ApiModel) : ApiMethod → PySig
  | .fit => fitSig (fitMatrixName model)
  | .recommend => plainSig [req "userid", req "user_items", opt "N" (.num 10), opt "filter_already_liked_items" (.bool true),
      opt "filter_items" .none, opt "recalculate_user" (.bool false), opt "items" .none]
  | .similarUsers => plainSig [req "userid", opt "N" (.num 10), opt "filter_users" .none, opt "users" .none]
  | .similarItems => plainSig [req "itemid", opt "N" (.num 10), opt "recalculate_item" (.bool false), opt "item_users" .none,
      opt "filter_items" .none, opt "items" .none]
  | .save => plainSig [req (saveParamName model)]
  | .load => plainSig [req (loadParamName model)]
  | .rankItems => rankItemsSig

/-- Does `recalculate_user` / `recalculate_item` exist?  ALS only (`implicit/cpu/als.py:203,242`, `implicit/gpu/als.py:181,194`);
the bases raise (`implicit/cpu/matrix_factorization_base.py:142-146`, `implicit/gpu/matrix_factorization_base.py:204-208`). -/
def canRecalculate : ApiClass → Bool
  | .cpuAls | .gpuAls => true
  | _ => false

/-- Argument `name` of a bound call. -/
def BoundArgs.arg (b : BoundArgs) (name : String) : ArgVal := b.get (.other name)

/-- A refused call. -/
def refuseIf (b : Bool) : Except Err Unit := if b then .error .notImplemented else .ok ()

/-- What a class that is not a wrapper refuses, given the bound arguments:
`fit` of the item-item models with a callback (`implicit/nearest_neighbours.py:32-33`), recalculation where there is none, and
`similar_users` of the item-item models (107-108), `recalculate_item` there (113-114).  The item-item `recommend` takes
`recalculate_user` and does not look at it (43-105). -/
def refusesPlain (env : FactoryEnv) (cls : ApiClass) (m : ApiMethod) (b : BoundArgs) : Except Err Unit :=
  match cls with
  | .itemItem | .cosine | .tfidf | .bm25 =>
    match m with
    | .fit => refuseIf (truthyVal env (b.arg "callback"))
    | .similarUsers => refuseIf true
    | .similarItems => refuseIf (truthyVal env (b.arg "recalculate_item"))
    | _ => .ok ()
  | _ =>
    match m with
    | .recommend | .rankItems => refuseIf (truthyVal env (b.arg "recalculate_user") && !canRecalculate cls)
    | .similarItems => refuseIf (truthyVal env (b.arg "recalculate_item") && !canRecalculate cls)
    | _ => .ok ()

/-- What an approximate class refuses: `similar_users`, `save`, `load` always (`implicit/ann/annoy.py:234-245`,
`implicit/ann/nmslib.py:237-248`, `implicit/ann/faiss.py:278-289`); with an index, a list of `items` (`annoy.py:98-99,166-167`,
`nmslib.py:127-128,174-175`, `faiss.py:135-136,195-196`), `recalculate_user` because the attribute `"+_user_factor"` is never found
(`annoy.py:194-199`, `nmslib.py:202-207`, `faiss.py:225-230`), and `recalculate_item` unless the wrapped model is a CPU model that can
(`annoy.py:127-132`, `nmslib.py:131-136`, `faiss.py:153-158`); without an index the call goes to the wrapped model, except that Faiss fails on `warnings.warning`, which does not exist
(`faiss.py:212-213`).  Faiss on the GPU, which goes to the wrapped model for more than 1023 results, is left out.  `rank_items` calls
`recommend` with `items` (`implicit/recommender_base.py:203-215`).  `fit` trains the wrapped model. -/
def refuses (env : FactoryEnv) (model : ApiModel) (m : ApiMethod) (b : BoundArgs) : Except Err Unit :=
  match model with
  | .plain cls => refusesPlain env cls m b
  | .approximate cls inner similar recommend =>
    match m with
    | .fit => refusesPlain env inner .fit b
    | .similarUsers | .save | .load => refuseIf true
    | .recommend =>
      if recommend then refuseIf (b.arg "items" != .none || truthyVal env (b.arg "recalculate_user"))
      else if cls = .faiss then .error .attributeError
      else refusesPlain env inner .recommend b
    | .rankItems =>
      if recommend then refuseIf (b.arg "selected_items" != .none || truthyVal env (b.arg "recalculate_user"))
      else if cls = .faiss then .error .attributeError
      else refusesPlain env inner .rankItems b
    | .similarItems =>
      if similar then refuseIf (b.arg "items" != .none || (truthyVal env (b.arg "recalculate_item") && inner != .cpuAls))
      else refusesPlain env inner .similarItems b

/-- A call of a method, up to the point where the arguments are accepted: `TypeError` if they do not fit, `NotImplementedError` if
the class refuses them, otherwise the values the method works with, in order. -/
def apiCall (env : FactoryEnv) (model : ApiModel) (m : ApiMethod) (c : Call PName ArgVal) : Except Err (List ArgVal) := do
  let b ← pyBind (classSig model m) c
  refuses env model m b
  pure (b.args.map Prod.snd)

/-- The same call on the interface: what `RecommenderBase` promises to accept. -/
def baseCall (m : ApiMethod) (c : Call PName ArgVal) : Except Err (List ArgVal) := do
  let b ← pyBind (baseSig m) c
  pure (b.args.map Prod.snd)

end Implicit
