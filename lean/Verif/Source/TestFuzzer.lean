import Verif.Source.Lang

/-!
# `test/src/fuzzer.c`

Written by `tools/c2lean.py`.
-/

namespace Sml.C

/-- `LLVMFuzzerTestOneInput` (test/src/fuzzer.c:20-27).
```
int LLVMFuzzerTestOneInput(const uint8_t *data, size_t size) {
  // we shift by 8 to be able to use libsml-testing bin files inside
  // corpus dir
  sml_file *file = sml_file_parse(size > 8 ? ((unsigned char *)data) + 8 : (unsigned char *)data,
                  size > 8 ? (size - 8) : size);
  sml_file_free(file);
  return 0;
}
```
Variables: 0 `data`, 1 `size`, 2 `file`. -/
def LLVMFuzzerTestOneInput : FunDef where
  params := [none, some .u64]
  res := some .i32
  body := [
    .setPtr 2 (.call .sml_file_parse [.cond (.bin .gt (.var 1) (.lit .i32 8)) (.addr (.var 0) (.lit .i32 8)) (.var 0), .cond (.bin .gt (.var 1) (.lit .i32 8)) (.bin .sub (.var 1) (.lit .i32 8)) (.var 1)]),
    .expr (.call .sml_file_free [.var 2]),
    .ret (.lit .i32 0)]

end Sml.C
