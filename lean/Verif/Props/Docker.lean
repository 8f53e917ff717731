import Verif.Lemmas.Docker

/-! # C92: the report of the Docker image, and `get_errors` of the examples -/

namespace FastVPINNs

open Spec

/-- The version in the report is the text of the first `version = "…"` in `pyproject.toml`; without one it is
`None`, and `Unknown` if the file cannot be read. -/
theorem C92_version (w : Container) (g : List Char) :
    (getVersionFromToml w = some g ↔
      (∃ e, w.pyproject = .error e) ∧ g = "Unknown".toList ∨
        ∃ content, w.pyproject = .ok content ∧ First VersionAt content g) ∧
    (getVersionFromToml w = none ↔ ∃ content, w.pyproject = .ok content ∧ Nowhere VersionAt content) := by
  unfold getVersionFromToml
  cases h : w.pyproject with
  | error e => simp [eq_comm]
  | ok content => simp [search_version content g |>.1, search_version content g |>.2]

/-- The CUDA version: the first `release a.b` in the output of `nvcc`; `Not found` exactly if `nvcc` could not be
started or printed nothing; otherwise the variable is left holding the process itself. -/
theorem C92_cuda (w : Container) :
    (∀ out, w.nvcc = .ok out → ∀ v, First ReleaseAt out v → cudaVersion w = .text (v.1 ++ '.' :: v.2)) ∧
    (cudaVersion w = .text "Not found".toList ↔ (∃ e, w.nvcc = .error e) ∨ w.nvcc = .ok []) ∧
    (cudaVersion w = .process ↔ ∃ out, w.nvcc = .ok out ∧ out ≠ [] ∧ Nowhere ReleaseAt out) := by
  have hne : ∀ out v, First ReleaseAt out v → out ≠ [] := by
    rintro out v ⟨pre, ⟨post, h, -⟩, -⟩ rfl
    simp at h
  unfold cudaVersion
  cases h : w.nvcc with
  | error e => simp
  | ok out =>
    cases out with
    | nil =>
      refine ⟨fun out h1 v hv => ?_, by simp, by simp⟩
      cases h1
      exact absurd rfl (hne _ v hv)
    | cons c cs =>
      dsimp only
      cases hs : reSearch matchRelease (c :: cs) with
      | some x =>
        dsimp only
        refine ⟨fun out h1 v hv => ?_, ?_, ?_⟩
        · cases h1
          have := ((search_release (c :: cs) (v.1 ++ '.' :: v.2)).1).2 ⟨v, hv, rfl⟩
          rw [hs] at this
          simp only [Option.some.injEq] at this
          simp [this]
        · obtain ⟨v, ⟨_, ⟨_, _, h1, _⟩, _⟩, rfl⟩ := ((search_release (c :: cs) x).1).1 hs
          simp only [CudaVersion.text.injEq, reduceCtorEq, exists_false, Except.ok.injEq, or_self, iff_false]
          intro hx
          obtain ⟨a, b⟩ := v
          cases a with
          | nil => exact h1.1 rfl
          | cons d a =>
            have h2 : d = 'N' := by
              have := congrArg List.head? hx
              simpa using this
            have h3 := h1.2 d List.mem_cons_self
            rw [h2] at h3
            exact absurd h3 (by decide)
        · simp only [reduceCtorEq, false_iff, not_exists, not_and, Except.ok.injEq]
          rintro _ rfl - hno
          rw [((search_release (c :: cs) x).2).2 hno] at hs
          cases hs
      | none =>
        dsimp only
        have hno := ((search_release (c :: cs) []).2).1 hs
        refine ⟨fun out h1 v hv => ?_, by simp, ?_⟩
        · cases h1
          obtain ⟨pre, hp, -⟩ := hv
          exact absurd hp (hno _ _)
        · simp only [true_iff]
          exact ⟨_, rfl, by simp, hno⟩

/-- The cuDNN version: the three numbers of the first place of the header where the three definitions follow each
other, with dots in between; `Not found` if there is no such place or no header. -/
theorem C92_cudnn (w : Container) :
    (∀ content, w.cudnnHeader = .ok content → ∀ v, First CudnnAt content v →
      cudnnVersion w = v.1 ++ '.' :: v.2.1 ++ '.' :: v.2.2) ∧
    (cudnnVersion w = "Not found".toList ↔
      (∃ e, w.cudnnHeader = .error e) ∨ ∃ content, w.cudnnHeader = .ok content ∧ Nowhere CudnnAt content) := by
  unfold cudnnVersion
  cases h : w.cudnnHeader with
  | error e => simp
  | ok content =>
    dsimp only
    cases hs : reSearch matchCudnn content with
    | some x =>
      dsimp only
      refine ⟨fun out h1 v hv => ?_, ?_⟩
      · cases h1
        have := ((search_cudnn content v).1).2 hv
        rw [hs] at this
        cases this
        rfl
      · obtain ⟨_, ⟨_, _, h1, _⟩, _⟩ := ((search_cudnn content x).1).1 hs
        obtain ⟨a, b, c⟩ := x
        simp only [reduceCtorEq, exists_false, Except.ok.injEq, false_or]
        constructor
        · intro hx
          cases a with
          | nil => exact absurd rfl h1.1
          | cons d a =>
            have h2 : d = 'N' := by
              have := congrArg List.head? hx
              simpa using this
            have h3 := h1.2 d List.mem_cons_self
            rw [h2] at h3
            exact absurd h3 (by decide)
        · rintro ⟨_, rfl, hno⟩
          rw [((search_cudnn content (a, b, c)).2).2 hno] at hs
          cases hs
    | none =>
      dsimp only
      have hno := ((search_cudnn content ([], [], [])).2).1 hs
      refine ⟨fun out h1 v hv => ?_, ?_⟩
      · cases h1
        obtain ⟨pre, hp, -⟩ := hv
        exact absurd hp (hno _ _)
      · simp only [true_iff]
        exact .inr ⟨_, rfl, hno⟩

/-- The driver version: the first line of what `nvidia-smi` prints, after blanks around the output are removed; an
output of blanks only gives an empty version. -/
theorem C92_driver (w : Container) :
    (∀ blanks line tail, w.nvidiaSmi = .ok (blanks ++ line ++ tail) → (∀ c ∈ blanks, c.isWhitespace = true) →
      (∃ c ∈ line.head?, c.isWhitespace = false) → (∃ c ∈ line.getLast?, c.isWhitespace = false) → '\n' ∉ line →
      (tail = [] ∨ ∃ rest, tail = '\n' :: rest) → driverVersion w = line) ∧
    (∀ blanks, w.nvidiaSmi = .ok blanks → blanks ≠ [] → (∀ c ∈ blanks, c.isWhitespace = true) →
      driverVersion w = []) ∧
    ((∃ e, w.nvidiaSmi = .error e) ∨ w.nvidiaSmi = .ok [] → driverVersion w = "Not found".toList) := by
  have hm : ∀ out, w.nvidiaSmi = .ok out → out ≠ [] → driverVersion w = (pyStrip out).takeWhile (· != '\n') := by
    intro out h hne
    unfold driverVersion
    rw [h]
    cases out with
    | nil => exact absurd rfl hne
    | cons a l => rfl
  refine ⟨?_, ?_, ?_⟩
  · rintro blanks line tail h hb ⟨a, ha, haw⟩ ⟨z, hz, hzw⟩ hnl htail
    have hne : line ≠ [] := by rintro rfl; simp at ha
    have hstrip : ∃ tail', pyStrip (blanks ++ line ++ tail) = line ++ tail' ∧ ∀ c s, tail' = c :: s → c = '\n' := by
      unfold pyStrip
      have h1 : (blanks ++ line ++ tail).dropWhile Char.isWhitespace = line ++ tail := by
        rw [List.append_assoc, List.dropWhile_append_of_pos hb]
        cases line with
        | nil => exact absurd rfl hne
        | cons b l =>
          obtain rfl : b = a := by simpa using ha
          rw [List.cons_append, List.dropWhile_cons_of_neg]
          simp [haw]
      rw [h1, List.reverse_append, List.dropWhile_append]
      split
      · refine ⟨[], ?_, by simp⟩
        have : line.reverse.dropWhile Char.isWhitespace = line.reverse := by
          cases hl : line.reverse with
          | nil => rfl
          | cons b l =>
            have : z = b := by
              have := List.head?_reverse (l := line)
              rw [hl] at this
              rw [← this] at hz
              simpa using hz.symm
            rw [List.dropWhile_cons_of_neg]
            simp [← this, hzw]
        rw [this]; simp
      · rw [List.reverse_append, List.reverse_reverse]
        refine ⟨_, rfl, fun c s hcs => ?_⟩
        have hsuf : (tail.reverse.dropWhile Char.isWhitespace) <:+ tail.reverse := List.dropWhile_suffix _
        have := List.reverse_prefix.2 hsuf
        rw [List.reverse_reverse, hcs] at this
        obtain ⟨t, ht⟩ := this
        rcases htail with rfl | ⟨rest, rfl⟩
        · simp at ht
        · cases ht
          rfl
    obtain ⟨tail', ht, ht'⟩ := hstrip
    rw [hm _ h (by simp [hne]), ht]
    exact (takeWhile_eq_of (p := (· != '\n')) (fun c hc => by
      have : c ≠ '\n' := fun h => hnl (h ▸ hc)
      simpa using this) (fun c s hs => by simp [ht' c s hs])).1
  · intro blanks h hne hb
    rw [hm _ h hne]
    unfold pyStrip
    rw [List.dropWhile_eq_nil_iff.2 hb]
    rfl
  · rintro (⟨e, h⟩ | h) <;> (unfold driverVersion; rw [h]; rfl)

/-- Two cards. -/
example (w : Container) (h : w.nvidiaSmi = .ok "535.104 (open)\n470.82\n".toList) :
    driverVersion w = "535.104 (open)".toList :=
  (C92_driver w).1 [] _ "\n470.82\n".toList h (by simp) ⟨'5', rfl, by decide⟩ ⟨')', rfl, by decide⟩ (by decide)
    (.inr ⟨_, rfl⟩)

/-- The lines with which every report begins. -/
def C92_head (version : List Char) : List (List Char) :=
  ["**********************************************************".toList,
    "Official Docker Image for FastVPINNs - Version ".toList ++ version,
    "URL: https://cmgcds.github.io/fastvpinns/".toList, "Docker Image Author : Thivin Anandh".toList,
    "**********************************************************\n".toList]

/-- The script runs to its end exactly if the logo converter and the three runs of `python3` can be started and
`nvcc` either does not run, prints nothing, or prints a release: missing programs other than `nvcc` and
`nvidia-smi` are not caught. -/
theorem C92_completes (w : Container) :
    (dockerMain w).2 = none ↔
      w.converter = .ok () ∧ (∃ v g n, w.tfVersion = .ok v ∧ w.tfGpu = .ok g ∧ w.tfCount = .ok n) ∧
      ¬ ∃ out, w.nvcc = .ok out ∧ out ≠ [] ∧ Nowhere ReleaseAt out := by
  rw [← (C92_cuda w).2.2]
  unfold dockerMain checkTensorflow
  cases h1 : w.converter <;> cases h2 : w.tfVersion <;> cases h3 : w.tfGpu <;> cases h4 : w.tfCount <;>
    cases h5 : cudaVersion w <;> simp

/-- What the script ends with otherwise: the exception of the first program that cannot be started, or a
`TypeError` when the process is formatted. -/
theorem C92_failures (w : Container) :
    (∀ e, w.converter = .error e → dockerMain w = ([], some e)) ∧
    (w.converter = .ok () →
      (∀ e, w.tfVersion = .error e → (dockerMain w).2 = some e) ∧
      (∀ v e, w.tfVersion = .ok v → w.tfGpu = .error e → (dockerMain w).2 = some e) ∧
      (∀ v g e, w.tfVersion = .ok v → w.tfGpu = .ok g → w.tfCount = .error e → (dockerMain w).2 = some e) ∧
      ∀ v g n out, w.tfVersion = .ok v → w.tfGpu = .ok g → w.tfCount = .ok n → w.nvcc = .ok out → out ≠ [] →
        Nowhere ReleaseAt out → (dockerMain w).2 = some .typeError) := by
  refine ⟨fun e h => ?_, fun h => ⟨fun e h1 => ?_, fun v e h1 h2 => ?_,
    fun v g e h1 h2 h3 => ?_, fun v g n out h1 h2 h3 h4 h5 h6 => ?_⟩⟩
  · unfold dockerMain
    rw [h]
  · unfold dockerMain checkTensorflow
    rw [h, h1]
  · unfold dockerMain checkTensorflow
    rw [h, h1, h2]
  · unfold dockerMain checkTensorflow
    rw [h, h1, h2, h3]
  · have := (C92_cuda w).2.2.2 ⟨out, h4, h5, h6⟩
    unfold dockerMain checkTensorflow
    rw [h, h1, h2, h3]
    dsimp only
    rw [this]

/-- **The message on the GPU**: it says that the checks are passed exactly if `nvcc` printed something and the
first line of what `nvidia-smi` printed is not `Not found`. Neither the exit codes nor TensorFlow have a say, and
nothing checks that what `nvidia-smi` printed is a version. -/
theorem C92_gpu (w : Container) (h : w.converter = .ok ()) :
    (((∃ out, w.nvcc = .ok out ∧ out ≠ []) ∧ driverVersion w ≠ "Not found".toList) →
      (dockerMain w).1[5]? = some "\x1b[92mGPU Checks Passed - GPU Acceleration is Available \x1b[0m".toList) ∧
    (¬ ((∃ out, w.nvcc = .ok out ∧ out ≠ []) ∧ driverVersion w ≠ "Not found".toList) →
      (dockerMain w).1[5]? = some "\x1b[91mGPU Checks Failed - Execution is available on CPU only\x1b[0m".toList) := by
  have hc : (∃ out, w.nvcc = .ok out ∧ out ≠ []) ↔ cudaVersion w ≠ .text "Not found".toList := by
    rw [Ne, (C92_cuda w).2.1]
    cases hn : w.nvcc <;> simp
  rw [hc]
  constructor
  · intro hp
    unfold dockerMain
    rw [h]
    dsimp only
    rw [if_pos hp]
    cases h1 : checkTensorflow w <;> cases h2 : cudaVersion w <;> rfl
  · intro hp
    unfold dockerMain
    rw [h]
    dsimp only
    rw [if_neg hp]
    cases h1 : checkTensorflow w <;> cases h2 : cudaVersion w <;> rfl

lemma padRight_filled (s : List Char) : Filled s (padRight s) :=
  ⟨_, rfl, by simp [padRight]; omega⟩

/-- The whole report of a run that comes to its end: five lines with the version of the package, the message on
the GPU, and a table of six cells, each filled up to ten characters (longer texts are not cut). -/
theorem C92_report (w : Container) (h : (dockerMain w).2 = none) :
    ∃ version gpu cuda cudnn driver tf support count v g n cudaText,
      (dockerMain w).1 = C92_head version ++ [gpu, List.replicate 101 '-',
        "| CUDA Version:       ".toList ++ cuda ++ " || cuDNN Version: ".toList ++ cudnn
          ++ "   || NVIDIA Driver Version: ".toList ++ driver ++ " |".toList,
        "| Tensorflow Version: ".toList ++ tf ++ " || GPU Support: ".toList ++ support
          ++ "     || Number of GPUs: ".toList ++ count ++ "        |".toList,
        List.replicate 101 '-'] ∧
      version = (getVersionFromToml w).getD "None".toList ∧
      cudaVersion w = .text cudaText ∧ Filled cudaText cuda ∧
      Filled (cudnnVersion w) cudnn ∧ Filled (driverVersion w) driver ∧
      w.tfVersion = .ok v ∧ w.tfGpu = .ok g ∧ w.tfCount = .ok n ∧
      Filled (pyStrip v) tf ∧ Filled (pyStrip g) support ∧ Filled (pyStrip n) count := by
  obtain ⟨h1, ⟨v, g, n, h2, h3, h4⟩, h5⟩ := (C92_completes w).1 h
  rw [← (C92_cuda w).2.2] at h5
  cases hc : cudaVersion w with
  | process => exact absurd hc h5
  | text cuda =>
    refine ⟨_, if cudaVersion w ≠ .text "Not found".toList ∧ driverVersion w ≠ "Not found".toList then
        "\x1b[92mGPU Checks Passed - GPU Acceleration is Available \x1b[0m".toList
      else "\x1b[91mGPU Checks Failed - Execution is available on CPU only\x1b[0m".toList, _, _, _, _, _, _,
      v, g, n, cuda, ?_, rfl, rfl, padRight_filled _, padRight_filled _, padRight_filled _, h2, h3, h4,
      padRight_filled _, padRight_filled _, padRight_filled _⟩
    unfold dockerMain checkTensorflow
    rw [h1, h2, h3, h4]
    dsimp only
    rw [hc]
    cases getVersionFromToml w <;> rfl

/-- A container with everything in place. -/
def C92_container : Container where
  pyproject := .ok "[project]\nname = \"fastvpinns\"\nversion = \"1.0.2\"\nreadme = \"README.md\"\n".toList
  converter := .ok ()
  nvcc := .ok "Cuda compilation tools, release 11.8, V11.8.89\n".toList
  cudnnHeader := .ok "#define CUDNN_MAJOR 8\n#define CUDNN_MINOR 6\n#define CUDNN_PATCHLEVEL 0\n".toList
  nvidiaSmi := .ok "525.85.12\n".toList
  tfVersion := .ok "2.13.0\n".toList
  tfGpu := .ok "True\n".toList
  tfCount := .ok "1\n".toList

/-- The same container without a working driver: `nvidia-smi` prints its complaint to standard output and
TensorFlow sees no GPU. -/
def C92_noDriver : Container where
  pyproject := C92_container.pyproject
  converter := .ok ()
  nvcc := C92_container.nvcc
  cudnnHeader := C92_container.cudnnHeader
  nvidiaSmi := .ok "NVIDIA-SMI has failed because it couldn't communicate with the NVIDIA driver.\n".toList
  tfVersion := .ok "2.13.0\n".toList
  tfGpu := .ok "False\n".toList
  tfCount := .ok "0\n".toList

/-- **The check passes without a driver**: on such a container the report says that GPU acceleration is
available, and has the complaint of `nvidia-smi` in the cell of the driver version. -/
theorem C92_false_pass :
    (dockerMain C92_noDriver).2 = none ∧
    (dockerMain C92_noDriver).1[5]? =
      some "\x1b[92mGPU Checks Passed - GPU Acceleration is Available \x1b[0m".toList ∧
    driverVersion C92_noDriver
      = "NVIDIA-SMI has failed because it couldn't communicate with the NVIDIA driver.".toList := by
  have hd : driverVersion C92_noDriver
      = "NVIDIA-SMI has failed because it couldn't communicate with the NVIDIA driver.".toList := by decide
  refine ⟨?_, (C92_gpu _ rfl).1 ⟨⟨_, rfl, by decide⟩, ?_⟩, hd⟩
  · rw [C92_completes, ← (C92_cuda _).2.2]
    exact ⟨rfl, ⟨_, _, _, rfl, rfl, rfl⟩, by decide⟩
  · rw [hd]; decide

/-- The versions of the container above. -/
example : getVersionFromToml C92_container = some "1.0.2".toList ∧
    cudaVersion C92_container = .text "11.8".toList ∧ cudnnVersion C92_container = "8.6.0".toList ∧
    driverVersion C92_container = "525.85.12".toList := by
  refine ⟨by decide, by decide, by decide, by decide⟩

/-- The hypotheses of `C92_report`, `C92_gpu`, `C92_cuda` and `C92_cudnn` can be met. -/
example : (dockerMain C92_container).2 = none ∧ C92_container.converter = .ok () ∧
    (∃ out v, C92_container.nvcc = .ok out ∧ First ReleaseAt out v) ∧
    ∃ content v, C92_container.cudnnHeader = .ok content ∧ First CudnnAt content v := by
  refine ⟨?_, rfl, ?_, ?_⟩
  · rw [C92_completes, ← (C92_cuda _).2.2]
    exact ⟨rfl, ⟨_, _, _, rfl, rfl, rfl⟩, by decide⟩
  · obtain ⟨v, hv, -⟩ := ((search_release "Cuda compilation tools, release 11.8, V11.8.89\n".toList
      "11.8".toList).1).1 (by decide)
    exact ⟨_, v, rfl, hv⟩
  · exact ⟨_, ("8".toList, "6".toList, "0".toList), rfl, ((search_cudnn _ _).1).1 (by decide)⟩

/-- **`get_errors` never returns** (`examples/**/utility.py`): it prints the epoch and a rule and then looks up
three names that exist nowhere, or it fails before that in `compute_errors_combined`. -/
theorem C92_get_errors (yExact yPred : NDArray) :
    (∀ r, (getErrors yExact yPred).2 ≠ .ok r) ∧
    (∀ r, computeErrorsCombined yExact yPred = .ok r →
      getErrors yExact yPred = (["Epoch", "--------------------"], .error .nameError)) ∧
    ∀ e, computeErrorsCombined yExact yPred = .error e → getErrors yExact yPred = ([], .error e) := by
  have hn : evalNames ["loss_pde", "loss_dirichlet", "total_loss"] = .error .nameError := by decide
  unfold getErrors
  cases h : computeErrorsCombined yExact yPred with
  | error e => simp
  | ok r => simp [hn]

end FastVPINNs
