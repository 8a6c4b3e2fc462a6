import Verif.Source.Lang

/-!
# `sml/src/sml_get_profile_list_request.c`

Written by `tools/c2lean.py`.
-/

namespace Sml.C

/-- `sml_get_profile_list_request_noop` (sml/src/sml_get_profile_list_request.c:23).
```
void sml_get_profile_list_request_noop() {}
``` -/
def sml_get_profile_list_request_noop : FunDef where
  params := []
  res := none
  body := []

end Sml.C
