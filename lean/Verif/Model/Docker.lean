import Verif.Model.Utils

/-! # `docker_initialise.py`: the report of the Docker image; `get_errors` of the examples

Texts that are searched are lists of characters.  The digits of `\d` are `0` to `9` and the blanks of `strip` are
those of `Char.isWhitespace` (Python knows more of both). -/

namespace FastVPINNs

/-! ## Regular expressions -/

/-- The rest of a text that starts with `p`. -/
def dropPrefix : List Char → List Char → Option (List Char)
  | [], cs => some cs
  | _ :: _, [] => none
  | p :: ps, c :: cs => if p = c then dropPrefix ps cs else none

/-- `(\d+)` (greedy): the digits and the rest. -/
def takeDigits (cs : List Char) : Option (List Char × List Char) :=
  match cs.takeWhile Char.isDigit with
  | [] => none
  | d => some (d, cs.dropWhile Char.isDigit)

/-- `re.search`: the first position at which the expression matches. -/
def reSearch {α : Type} (m : List Char → Option α) : List Char → Option α
  | [] => m []
  | c :: cs =>
    match m (c :: cs) with
    | some a => some a
    | none => reSearch m cs

/-- `version = "([^"]+)"` (`docker_initialise.py:10`) at the beginning of a text: group 1. -/
def matchVersion (cs : List Char) : Option (List Char) :=
  match dropPrefix "version = \"".toList cs with
  | none => none
  | some r =>
    match r.takeWhile (· != '"'), r.dropWhile (· != '"') with
    | [], _ => none
    | g, '"' :: _ => some g
    | _, _ => none

/-- `release (\d+\.\d+)` (`docker_initialise.py:60`): group 1. -/
def matchRelease (cs : List Char) : Option (List Char) := do
  let r ← dropPrefix "release ".toList cs
  let (a, r) ← takeDigits r
  let r ← dropPrefix ".".toList r
  let (b, _) ← takeDigits r
  return a ++ '.' :: b

/-- `#define CUDNN_MAJOR (\d+)\n#define CUDNN_MINOR (\d+)\n#define CUDNN_PATCHLEVEL (\d+)`
(`docker_initialise.py:72`): the three groups. -/
def matchCudnn (cs : List Char) : Option (List Char × List Char × List Char) := do
  let r ← dropPrefix "#define CUDNN_MAJOR ".toList cs
  let (a, r) ← takeDigits r
  let r ← dropPrefix "\n#define CUDNN_MINOR ".toList r
  let (b, r) ← takeDigits r
  let r ← dropPrefix "\n#define CUDNN_PATCHLEVEL ".toList r
  let (c, _) ← takeDigits r
  return (a, b, c)

/-- `str.strip`. -/
def pyStrip (cs : List Char) : List Char :=
  ((cs.dropWhile Char.isWhitespace).reverse.dropWhile Char.isWhitespace).reverse

/-! ## The report -/

/-- What the script finds in the container: contents of files and standard outputs of programs, or the exception
of `open` and `subprocess.run`.  (Exit codes and error outputs are not looked at.) -/
structure Container where
  pyproject : Except PyErr (List Char)
  converter : Except PyErr Unit
  nvcc : Except PyErr (List Char)
  cudnnHeader : Except PyErr (List Char)
  nvidiaSmi : Except PyErr (List Char)
  tfVersion : Except PyErr (List Char)
  tfGpu : Except PyErr (List Char)
  tfCount : Except PyErr (List Char)

/-- `docker_initialise.py:6-14` (`get_version_from_toml`); `None` if nothing matches. -/
def getVersionFromToml (w : Container) : Option (List Char) :=
  match w.pyproject with
  | .error _ => some "Unknown".toList
  | .ok content => reSearch matchVersion content

/-- `docker_initialise.py:17-49` (`check_tensorflow`). -/
def checkTensorflow (w : Container) : Except PyErr (List Char × List Char × List Char) :=
  match w.tfVersion, w.tfGpu, w.tfCount with
  | .error e, _, _ => .error e
  | _, .error e, _ => .error e
  | _, _, .error e => .error e
  | .ok v, .ok g, .ok n => .ok (pyStrip v, pyStrip g, pyStrip n)

/-- The variable `cuda_version`: a text, or still the `CompletedProcess`. -/
inductive CudaVersion
  | text (s : List Char)
  | process
  deriving DecidableEq

/-- `docker_initialise.py:54-65`: if the output does not match, `.group` of `None` raises inside the `try`, after
the variable was set to the process. -/
def cudaVersion (w : Container) : CudaVersion :=
  match w.nvcc with
  | .error _ => .text "Not found".toList
  | .ok [] => .text "Not found".toList
  | .ok out =>
    match reSearch matchRelease out with
    | some v => .text v
    | none => .process

/-- `docker_initialise.py:67-81`. -/
def cudnnVersion (w : Container) : List Char :=
  match w.cudnnHeader with
  | .error _ => "Not found".toList
  | .ok content =>
    match reSearch matchCudnn content with
    | some (a, b, c) => a ++ '.' :: b ++ '.' :: c
    | none => "Not found".toList

/-- `docker_initialise.py:83-97`, including `.split('\n')[0]`. -/
def driverVersion (w : Container) : List Char :=
  let s := match w.nvidiaSmi with
    | .error _ => "Not found".toList
    | .ok [] => "Not found".toList
    | .ok out => pyStrip out
  s.takeWhile (· != '\n')

/-- `f"{s:<10}"`. -/
def padRight (s : List Char) : List Char := s ++ List.replicate (10 - s.length) ' '

/-- The lines that the script prints itself, and the exception it ends with, if any.
`docker_initialise.py:100-137` (`main`). -/
def dockerMain (w : Container) : List (List Char) × Option PyErr :=
  let version := match getVersionFromToml w with
    | some v => v
    | none => "None".toList
  match w.converter with
  | .error e => ([], some e)
  | .ok () =>
    let stars := "**********************************************************".toList
    let head := [stars, "Official Docker Image for FastVPINNs - Version ".toList ++ version,
      "URL: https://cmgcds.github.io/fastvpinns/".toList, "Docker Image Author : Thivin Anandh".toList,
      stars ++ ['\n']]
    let gpu := if cudaVersion w ≠ .text "Not found".toList ∧ driverVersion w ≠ "Not found".toList then
        "\x1b[92mGPU Checks Passed - GPU Acceleration is Available \x1b[0m".toList
      else "\x1b[91mGPU Checks Failed - Execution is available on CPU only\x1b[0m".toList
    match checkTensorflow w with
    | .error e => (head ++ [gpu], some e)
    | .ok (tf, support, count) =>
      let rule := List.replicate 101 '-'
      match cudaVersion w with
      | .process => (head ++ [gpu, rule], some .typeError)
      | .text cuda =>
        (head ++ [gpu, rule,
          "| CUDA Version:       ".toList ++ padRight cuda ++ " || cuDNN Version: ".toList
            ++ padRight (cudnnVersion w) ++ "   || NVIDIA Driver Version: ".toList ++ padRight (driverVersion w)
            ++ " |".toList,
          "| Tensorflow Version: ".toList ++ padRight tf ++ " || GPU Support: ".toList ++ padRight support
            ++ "     || Number of GPUs: ".toList ++ padRight count ++ "        |".toList,
          rule], none)

/-! ## `get_errors` -/

/-- The global names of the module `utility` after its import (`utility.py:1-6` and its two functions). -/
def utilityGlobals : List String :=
  ["sys", "yaml", "np", "plot_contour", "plot_loss_function", "plot_test_loss_function",
    "compute_errors_combined", "get_errors", "plot_results"]

/-- The parameters of `get_errors` (`examples/**/utility.py:9-21`) and the names it assigns (lines 42-44). -/
def getErrorsLocals : List String :=
  ["model", "console", "y_pred", "y_exact", "Y_Exact_Matrix", "i_n_test_points_x", "i_n_test_points_y",
    "i_output_path", "epoch", "loss", "num_epochs", "l2_error", "linf_error", "l2_error_relative",
    "linf_error_relative", "l1_error", "l1_error_relative"]

/-- Python builtins do not contain the names in question; everything else is looked up in the two lists. -/
def evalNames (names : List String) : Except PyErr Unit :=
  if ∀ n ∈ names, n ∈ getErrorsLocals ∨ n ∈ utilityGlobals then .ok () else .error .nameError

/-- `examples/**/utility.py:9-66` (the same file in all examples that have one): the printed lines (without their
values) and the result. -/
noncomputable def getErrors (yExact yPred : NDArray) :
    List String × Except PyErr (List (String × ℝ)) :=
  match computeErrorsCombined yExact yPred with
  | .error e => ([], .error e)
  | .ok (l2, linf, l2r, linfr, l1, l1r) =>
    let head := ["Epoch", "--------------------"]
    match evalNames ["loss_pde", "loss_dirichlet", "total_loss"] with
    | .error e => (head, .error e)
    | .ok () => (head ++ ["Variational Losses", "L1 Error", "L2 Error", "Linf Error"],
        .ok [("l2_error", l2), ("linf_error", linf), ("l2_error_relative", l2r), ("linf_error_relative", linfr),
          ("l1_error", l1), ("l1_error_relative", l1r)])

end FastVPINNs
