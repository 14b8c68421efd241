import Verif.Model.World
/-!
Model of the build tool: build.py, contract_generator/builder.py, writer.py and config.py, with the files of contracts/ and
their import statements.
-/
namespace Verif.Packaging

/-- A path, as its components. -/
abbrev Path := List String

/-- The file system: content (any value can be coded as a number) of the files. Simplification: directories exist as far as
files are below them; permissions, links and name clashes between files and directories are not modelled. -/
abbrev FS := Path → Option Nat

/-- One contract to build (`Contract`, builder.py:38): its name and the pairs (source path, path in the output). -/
structure Package where
  name : String
  files : List (Path × Path)
  deriving DecidableEq, Repr

/-- `_append_contract_on_path_list`, builder.py:57-80, for the files `tree` below the contracts directory `root` (paths relative to
it). Simplification: `str.replace` of the contracts path is modelled for paths containing it once, in front. -/
def ownFiles (root : Path) (tree : List Path) (name : String) : List (Path × Path) :=
  tree.filterMap fun p =>
    if p.head? = some name ∧ 2 ≤ p.length ∧ p.dropLast.getLast? ≠ some "tests" ∧ "__pycache__" ∉ p.dropLast then
      some (root ++ p, if p.getLast? = some "package.json" then [name, "package.json"] else name :: p)
    else none

/-- `_append_dependencies_on_path_list`, builder.py:82-93. -/
def dependencyFiles (root : Path) (name : String) (deps : List Path) : List (Path × Path) :=
  deps.map fun d => (root ++ d, name :: d)

/-- `_append_notice_on_path_list`, builder.py:95-103. -/
def noticeFile (name : String) : List (Path × Path) := [(["NOTICE"], [name, "NOTICE"])]

/-- The dependencies of each contract (`config`). -/
abbrev Config := List (String × List Path)

/-- The loop body of `Builder.__init__`, builder.py:39-47. -/
def package (cfg : Config) (root : Path) (tree : List Path) (name : String) : Except String Package :=
  match cfg.lookup name with
  | none => .error "KeyError"
  | some deps =>
    match deps.getLast? with
    | none => .error "IndexError"
    | some l =>
      if l = ["NOTICE"] then
        .ok ⟨name, ownFiles root tree name ++ noticeFile name ++ dependencyFiles root name deps.dropLast⟩
      else .ok ⟨name, ownFiles root tree name ++ dependencyFiles root name deps⟩

/-- `Builder.__init__`, builder.py:25-47: all contracts if none is named. -/
def packages (cfg : Config) (root : Path) (tree : List Path) (names : List String) : Except String (List Package) :=
  (if names = [] then cfg.map (·.1) else names).mapM (package cfg root tree)

/-- `shutil.copy` to a full path, writer.py:58. Fails if there is no such source. -/
def copyFile (src dst : Path) (fs : FS) : Option FS :=
  match fs src with
  | none => none
  | some c => some (upd fs dst (some c))

/-- `rmtree`, writer.py:53, 66, 132. -/
def removeTree (d : Path) (fs : FS) : FS := fun p => if d <+: p then none else fs p

/-- The loop over the files, writer.py:54-58. -/
def copyAll (out : Path) : List (Path × Path) → FS → Option FS
  | [], fs => some fs
  | (s, d) :: l, fs => (copyFile s (out ++ d) fs).bind (copyAll out l)

/-- `FileWriter.write`, writer.py:41-58. -/
def writeFiles (out : Path) : List Package → FS → Option FS
  | [], fs => some fs
  | c :: l, fs => (copyAll out c.files (removeTree (out ++ [c.name]) fs)).bind (writeFiles out l)

/-- `FileWriter.clean`, writer.py:60-69. -/
def clean (out : Path) (fs : FS) : FS := removeTree out fs

/-- The entries of the archive `ZipWriter.write` makes, writer.py:96-112. -/
def zipEntries (fs : FS) : List (Path × Path) → Option (List (Path × Nat))
  | [] => some []
  | (s, d) :: l => match fs s, zipEntries fs l with
    | some c, some r => some ((d, c) :: r)
    | _, _ => none

/-- `ZipWriter.write`, writer.py:96-112. -/
def writeZip (pkgs : List Package) (fs : FS) : Option (List (Path × Nat)) := zipEntries fs (pkgs.flatMap (·.files))

/-- Extracting an archive, entry by entry (zipfile). -/
def extractAll (out : Path) : List (Path × Nat) → FS → FS
  | [], fs => fs
  | (d, c) :: l, fs => extractAll out l (upd fs (out ++ d) (some c))

/-- `ZipWriter.store_to_file`, writer.py:122-133. -/
def storeToFile (out : Path) (z : List (Path × Nat)) (fs : FS) : FS := extractAll out z (removeTree out fs)

/-- What `main` of build.py:77-87 leaves behind: `none` for a crash half way. An unknown contract name is reported and nothing
is written (build.py:69-74). -/
def main (cfg : Config) (root : Path) (tree : List Path) (out : Path) (args : List String) (fs : FS) : Option FS :=
  match args with
  | "clean" :: _ => some (clean out fs)
  | names => match packages cfg root tree names with
    | .ok l => writeFiles out l fs
    | .error "KeyError" => some fs
    | .error _ => none

/-! ### The data of this code base -/

/-- `config`, config.py:28-108. -/
def config : Config := [
  ("flexible_token", [["interfaces", "__init__.py"],
    ["interfaces", "abc_irc_token.py"],
    ["interfaces", "abc_token_holder.py"],
    ["interfaces", "abc_owned.py"],
    ["interfaces", "abc_flexible_token.py"],
    ["irc_token", "__init__.py"],
    ["irc_token", "irc_token.py"],
    ["utility", "__init__.py"],
    ["utility", "owned.py"],
    ["utility", "token_holder.py"],
    ["utility", "utils.py"],
    ["utility", "proxy_score.py"],
    ["NOTICE"]]),
  ("icx_token", [["interfaces", "__init__.py"],
    ["interfaces", "abc_icx_token.py"],
    ["interfaces", "abc_irc_token.py"],
    ["interfaces", "abc_token_holder.py"],
    ["interfaces", "abc_owned.py"],
    ["irc_token", "__init__.py"],
    ["irc_token", "irc_token.py"],
    ["utility", "__init__.py"],
    ["utility", "owned.py"],
    ["utility", "token_holder.py"],
    ["utility", "utils.py"],
    ["utility", "proxy_score.py"],
    ["NOTICE"]]),
  ("irc_token", [["interfaces", "__init__.py"],
    ["interfaces", "abc_irc_token.py"]]),
  ("score_registry", [["interfaces", "__init__.py"],
    ["interfaces", "abc_score_registry.py"],
    ["interfaces", "abc_owned.py"],
    ["utility", "__init__.py"],
    ["utility", "owned.py"],
    ["utility", "utils.py"],
    ["utility", "proxy_score.py"],
    ["NOTICE"]]),
  ("network", [["interfaces", "__init__.py"],
    ["interfaces", "abc_flexible_token.py"],
    ["interfaces", "abc_irc_token.py"],
    ["interfaces", "abc_icx_token.py"],
    ["interfaces", "abc_token_holder.py"],
    ["interfaces", "abc_owned.py"],
    ["interfaces", "abc_converter.py"],
    ["utility", "__init__.py"],
    ["utility", "owned.py"],
    ["utility", "token_holder.py"],
    ["utility", "utils.py"],
    ["utility", "proxy_score.py"],
    ["NOTICE"]]),
  ("converter", [["formula", "__init__.py"],
    ["formula", "fixed_map_formula.py"],
    ["interfaces", "__init__.py"],
    ["interfaces", "abc_formula.py"],
    ["interfaces", "abc_converter.py"],
    ["interfaces", "abc_irc_token.py"],
    ["interfaces", "abc_score_registry.py"],
    ["interfaces", "abc_flexible_token.py"],
    ["interfaces", "abc_token_holder.py"],
    ["interfaces", "abc_owned.py"],
    ["utility", "__init__.py"],
    ["utility", "managed.py"],
    ["utility", "owned.py"],
    ["utility", "utils.py"],
    ["utility", "proxy_score.py"],
    ["utility", "flexible_token_controller.py"],
    ["utility", "token_holder.py"],
    ["NOTICE"]])]

/-- The files below contracts/. -/
def tree : List Path := [
  ["__init__.py"],
  ["converter", "__init__.py"],
  ["converter", "converter.py"],
  ["converter", "package.json"],
  ["converter", "tests", "__init__.py"],
  ["flexible_token", "__init__.py"],
  ["flexible_token", "flexible_token.py"],
  ["flexible_token", "package.json"],
  ["flexible_token", "tests", "__init__.py"],
  ["formula", "__init__.py"],
  ["formula", "auto_generate", "__init__.py"],
  ["formula", "auto_generate", "common", "__init__.py"],
  ["formula", "auto_generate", "common", "constants.py"],
  ["formula", "auto_generate", "common", "functions.py"],
  ["formula", "auto_generate", "print_file_formula_constants.py"],
  ["formula", "auto_generate", "print_function_constructor.py"],
  ["formula", "auto_generate", "print_function_general_exp.py"],
  ["formula", "auto_generate", "print_function_optimal_exp.py"],
  ["formula", "auto_generate", "print_function_optimal_log.py"],
  ["formula", "auto_generate", "print_int_scaling_factors.py"],
  ["formula", "auto_generate", "print_ln2_scaling_factors.py"],
  ["formula", "auto_generate", "print_max_exp_per_precision.py"],
  ["formula", "fixed_map_formula.py"],
  ["icx_token", "__init__.py"],
  ["icx_token", "icx_token.py"],
  ["icx_token", "package.json"],
  ["icx_token", "tests", "__init__.py"],
  ["interfaces", "__init__.py"],
  ["interfaces", "abc_converter.py"],
  ["interfaces", "abc_flexible_token.py"],
  ["interfaces", "abc_formula.py"],
  ["interfaces", "abc_icx_token.py"],
  ["interfaces", "abc_irc_token.py"],
  ["interfaces", "abc_owned.py"],
  ["interfaces", "abc_score_registry.py"],
  ["interfaces", "abc_token_holder.py"],
  ["irc_token", "__init__.py"],
  ["irc_token", "irc_token.py"],
  ["irc_token", "package.json"],
  ["irc_token", "tests", "__init__.py"],
  ["network", "__init__.py"],
  ["network", "network.py"],
  ["network", "package.json"],
  ["network", "tests", "__init__.py"],
  ["score_registry", "__init__.py"],
  ["score_registry", "package.json"],
  ["score_registry", "score_registry.py"],
  ["score_registry", "tests", "__init__.py"],
  ["utility", "__init__.py"],
  ["utility", "flexible_token_controller.py"],
  ["utility", "managed.py"],
  ["utility", "owned.py"],
  ["utility", "proxy_score.py"],
  ["utility", "storage.py"],
  ["utility", "token_holder.py"],
  ["utility", "utils.py"]]

/-- An import statement naming a module of this code base: the number of leading dots, and the dotted name
(`from ..interfaces.abc_owned import ABCOwned` is `⟨2, ["interfaces", "abc_owned"]⟩`). -/
structure Import where
  dots : Nat
  name : Path
  deriving DecidableEq, Repr

/-- The relative imports in each file of contracts/ (files below formula/auto_generate import each other absolutely, and are
part of no package). Imports of the platform (`iconservice`) and of Python's library are left out. -/
def imports : List (Path × List Import) := [
  -- converter/converter.py:17-25
  (["converter", "converter.py"], [⟨2, ["formula"]⟩, ⟨2, ["interfaces", "abc_converter"]⟩, ⟨2, ["interfaces", "abc_flexible_token"]⟩, ⟨2, ["interfaces", "abc_irc_token"]⟩, ⟨2, ["interfaces", "abc_score_registry"]⟩, ⟨2, ["utility", "flexible_token_controller"]⟩, ⟨2, ["utility", "managed"]⟩, ⟨2, ["utility", "proxy_score"]⟩, ⟨2, ["utility", "utils"]⟩]),
  -- flexible_token/flexible_token.py:17-20
  (["flexible_token", "flexible_token.py"], [⟨2, ["interfaces", "abc_flexible_token"]⟩, ⟨2, ["irc_token", "irc_token"]⟩, ⟨2, ["utility", "token_holder"]⟩, ⟨2, ["utility", "utils"]⟩]),
  -- formula/__init__.py:16-16
  (["formula", "__init__.py"], [⟨1, ["fixed_map_formula"]⟩]),
  -- formula/fixed_map_formula.py:22-23
  (["formula", "fixed_map_formula.py"], [⟨2, ["utility", "utils"]⟩, ⟨2, ["interfaces", "abc_formula"]⟩]),
  -- icx_token/icx_token.py:17-20
  (["icx_token", "icx_token.py"], [⟨2, ["interfaces", "abc_icx_token"]⟩, ⟨2, ["irc_token", "irc_token"]⟩, ⟨2, ["utility", "token_holder"]⟩, ⟨2, ["utility", "utils"]⟩]),
  -- interfaces/abc_flexible_token.py:18-19
  (["interfaces", "abc_flexible_token.py"], [⟨1, ["abc_irc_token"]⟩, ⟨1, ["abc_token_holder"]⟩]),
  -- interfaces/abc_icx_token.py:18-19
  (["interfaces", "abc_icx_token.py"], [⟨1, ["abc_irc_token"]⟩, ⟨1, ["abc_token_holder"]⟩]),
  -- interfaces/abc_token_holder.py:18-18
  (["interfaces", "abc_token_holder.py"], [⟨1, ["abc_owned"]⟩]),
  -- irc_token/irc_token.py:18-18
  (["irc_token", "irc_token.py"], [⟨2, ["interfaces", "abc_irc_token"]⟩]),
  -- network/network.py:17-23
  (["network", "network.py"], [⟨2, ["interfaces", "abc_converter"]⟩, ⟨2, ["interfaces", "abc_icx_token"]⟩, ⟨2, ["interfaces", "abc_irc_token"]⟩, ⟨2, ["interfaces", "abc_flexible_token"]⟩, ⟨2, ["utility", "proxy_score"]⟩, ⟨2, ["utility", "token_holder"]⟩, ⟨2, ["utility", "utils"]⟩]),
  -- score_registry/score_registry.py:17-19
  (["score_registry", "score_registry.py"], [⟨2, ["interfaces", "abc_score_registry"]⟩, ⟨2, ["utility", "owned"]⟩, ⟨2, ["utility", "utils"]⟩]),
  -- utility/flexible_token_controller.py:17-20
  (["utility", "flexible_token_controller.py"], [⟨1, ["proxy_score"]⟩, ⟨1, ["token_holder"]⟩, ⟨1, ["utils"]⟩, ⟨2, ["interfaces", "abc_flexible_token"]⟩]),
  -- utility/managed.py:17-18
  (["utility", "managed.py"], [⟨1, ["owned"]⟩, ⟨1, ["utils"]⟩]),
  -- utility/owned.py:19-19
  (["utility", "owned.py"], [⟨2, ["interfaces", "abc_owned"]⟩]),
  -- utility/token_holder.py:16-20
  (["utility", "token_holder.py"], [⟨1, ["owned"]⟩, ⟨1, ["utils"]⟩, ⟨2, ["interfaces", "abc_irc_token"]⟩, ⟨2, ["interfaces", "abc_token_holder"]⟩, ⟨2, ["utility", "proxy_score"]⟩])]

/-- `main_file` of each package.json, contracts/*/package.json:3. -/
def mainFile : List (String × Path) := [
  ("flexible_token", ["flexible_token", "flexible_token"]), ("icx_token", ["icx_token", "icx_token"]), ("irc_token", ["irc_token", "irc_token"]), ("score_registry", ["score_registry", "score_registry"]), ("network", ["network", "network"]), ("converter", ["converter", "converter"])]

end Verif.Packaging
