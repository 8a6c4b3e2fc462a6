import Verif.Source.Lang

/-!
# `sml/src/sml_status.c`

Written by `tools/c2lean.py`.
-/

namespace Sml.C

/-- `sml_status_init` (sml/src/sml_status.c:21-26).
```
sml_status *sml_status_init() {
  sml_status *status = (sml_status *)malloc(sizeof(sml_status));
  *status = (sml_status){.type = SML_TYPE_UNSIGNED, .data.status8 = NULL};

  return status;
}
```
Variables: 0 `status`. -/
def sml_status_init : FunDef where
  params := []
  res := none
  body := [
    .setPtr 0 (.mallocRec 1 1),
    .stRec (.var 0) [.null] [(.u8, .lit .i32 96)],
    .ret (.var 0)]

/-- `sml_status_parse` (sml/src/sml_status.c:28-59).
```
sml_status *sml_status_parse(sml_buffer *buf) {
  if (sml_buf_optional_is_skipped(buf)) {
    return NULL;
  }

  int max = 1;
  int type = sml_buf_get_next_type(buf);
  unsigned char byte = sml_buf_get_current_byte(buf);

  sml_status *status = sml_status_init();
  status->type = type;
  switch (type) {
  case SML_TYPE_UNSIGNED:
    // get maximal size, if not all bytes are used (example: only 6 bytes for a u64)
    while (max < ((byte & SML_LENGTH_FIELD) - 1)) {
      max <<= 1;
    }

    status->data.status8 = sml_number_parse(buf, type, max);
    status->type |= max;
    break;
  default:
    buf->error = 1;
    break;
  }
  if (sml_buf_has_errors(buf)) {
    sml_status_free(status);
    return NULL;
  }

  return status;
}
```
Variables: 0 `buf`, 1 `max`, 2 `type`, 3 `byte`, 4 `status`. -/
def sml_status_parse : FunDef where
  params := [none]
  res := none
  body := [
    .ite (.call .sml_buf_optional_is_skipped [.var 0]) [
      .ret .null] [],
    .set .i32 1 (.lit .i32 1),
    .set .i32 2 (.call .sml_buf_get_next_type [.var 0]),
    .set .u8 3 (.call .sml_buf_get_current_byte [.var 0]),
    .setPtr 4 (.call .sml_status_init []),
    .stInt .u8 (.var 4) 0 (.var 2),
    .switch (.var 2) [
      .case 96,
      .loop (.bin .lt (.var 1) (.bin .sub (.bin .band (.var 3) (.lit .i32 15)) (.lit .i32 1))) [
        .set .i32 1 (.bin .shl (.var 1) (.lit .i32 1))] [],
      .stPtr (.var 4) 0 (.call .sml_number_parse [.var 0, .var 2, .var 1]),
      .stInt .u8 (.var 4) 0 (.bin .bor (.ldInt .u8 (.var 4) 0) (.var 1)),
      .brk,
      .dflt,
      .stInt .i32 (.var 0) 2 (.lit .i32 1),
      .brk],
    .ite (.call .sml_buf_has_errors [.var 0]) [
      .expr (.call .sml_status_free [.var 4]),
      .ret .null] [],
    .ret (.var 4)]

/-- `sml_status_write` (sml/src/sml_status.c:61-68).
```
void sml_status_write(sml_status *status, sml_buffer *buf) {
  if (status == 0) {
    sml_buf_optional_write(buf);
    return;
  }
  sml_number_write(status->data.status8, (status->type & SML_TYPE_FIELD),
           (status->type & SML_LENGTH_FIELD), buf);
}
```
Variables: 0 `status`, 1 `buf`. -/
def sml_status_write : FunDef where
  params := [none, none]
  res := none
  body := [
    .ite (.bin .eq (.var 0) .null) [
      .expr (.call .sml_buf_optional_write [.var 1]),
      .retVoid] [],
    .expr (.call .sml_number_write [.ldPtr (.var 0) 0, .bin .band (.ldInt .u8 (.var 0) 0) (.lit .i32 112), .bin .band (.ldInt .u8 (.var 0) 0) (.lit .i32 15), .var 1])]

/-- `sml_status_free` (sml/src/sml_status.c:70-75).
```
void sml_status_free(sml_status *status) {
  if (status) {
    sml_number_free(status->data.status8);
    free(status);
  }
}
```
Variables: 0 `status`. -/
def sml_status_free : FunDef where
  params := [none]
  res := none
  body := [
    .ite (.var 0) [
      .expr (.call .sml_number_free [.ldPtr (.var 0) 0]),
      .free (.var 0)] []]

end Sml.C
