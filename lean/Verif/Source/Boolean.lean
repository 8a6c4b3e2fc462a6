import Verif.Source.Lang

/-!
# `sml/src/sml_boolean.c`

Written by `tools/c2lean.py`.
-/

namespace Sml.C

/-- `sml_boolean_init` (sml/src/sml_boolean.c:22-27).
```
sml_boolean *sml_boolean_init(u8 b) {
  sml_boolean *boolean = malloc(sizeof(u8));
  *boolean = b;

  return boolean;
}
```
Variables: 0 `b`, 1 `boolean`. -/
def sml_boolean_init : FunDef where
  params := [some .u8]
  res := none
  body := [
    .setPtr 1 (.mallocBytes (.lit .u64 1)),
    .stDeref .u8 (.var 1) (.var 0),
    .ret (.var 1)]

/-- `sml_boolean_parse` (sml/src/sml_boolean.c:29-56).
```
sml_boolean *sml_boolean_parse(sml_buffer *buf) {
  if (sml_buf_optional_is_skipped(buf)) {
    return NULL;
  }

  if (sml_buf_get_next_type(buf) != SML_TYPE_BOOLEAN) {
    buf->error = 1;
    return NULL;
  }

  int l = sml_buf_get_next_length(buf);
  if (l != 1) {
    buf->error = 1;
    return NULL;
  }
  if (buf->cursor >= buf->buffer_len) {
    buf->error = 1;
    return NULL;
  }

  if (sml_buf_get_current_byte(buf)) {
    sml_buf_update_bytes_read(buf, 1);
    return sml_boolean_init(SML_BOOLEAN_TRUE);
  } else {
    sml_buf_update_bytes_read(buf, 1);
    return sml_boolean_init(SML_BOOLEAN_FALSE);
  }
}
```
Variables: 0 `buf`, 1 `l`. -/
def sml_boolean_parse : FunDef where
  params := [none]
  res := none
  body := [
    .ite (.call .sml_buf_optional_is_skipped [.var 0]) [
      .ret .null] [],
    .ite (.bin .ne (.call .sml_buf_get_next_type [.var 0]) (.lit .i32 64)) [
      .stInt .i32 (.var 0) 2 (.lit .i32 1),
      .ret .null] [],
    .set .i32 1 (.call .sml_buf_get_next_length [.var 0]),
    .ite (.bin .ne (.var 1) (.lit .i32 1)) [
      .stInt .i32 (.var 0) 2 (.lit .i32 1),
      .ret .null] [],
    .ite (.bin .ge (.ldInt .u64 (.var 0) 1) (.ldInt .u64 (.var 0) 0)) [
      .stInt .i32 (.var 0) 2 (.lit .i32 1),
      .ret .null] [],
    .ite (.call .sml_buf_get_current_byte [.var 0]) [
      .expr (.call .sml_buf_update_bytes_read [.var 0, .lit .i32 1]),
      .ret (.call .sml_boolean_init [.lit .i32 255])] [
      .expr (.call .sml_buf_update_bytes_read [.var 0, .lit .i32 1]),
      .ret (.call .sml_boolean_init [.lit .i32 0])]]

/-- `sml_boolean_write` (sml/src/sml_boolean.c:58-71).
```
void sml_boolean_write(sml_boolean *boolean, sml_buffer *buf) {
  if (boolean == 0) {
    sml_buf_optional_write(buf);
    return;
  }

  sml_buf_set_type_and_length(buf, SML_TYPE_BOOLEAN, 1);
  if (*boolean == SML_BOOLEAN_FALSE) {
    buf->buffer[buf->cursor] = SML_BOOLEAN_FALSE;
  } else {
    buf->buffer[buf->cursor] = SML_BOOLEAN_TRUE;
  }
  buf->cursor++;
}
```
Variables: 0 `boolean`, 1 `buf`. -/
def sml_boolean_write : FunDef where
  params := [none, none]
  res := none
  body := [
    .ite (.bin .eq (.var 0) .null) [
      .expr (.call .sml_buf_optional_write [.var 1]),
      .retVoid] [],
    .expr (.call .sml_buf_set_type_and_length [.var 1, .lit .i32 64, .lit .i32 1]),
    .ite (.bin .eq (.deref .u8 (.var 0)) (.lit .i32 0)) [
      .stByte .u8 (.ldPtr (.var 1) 0) (.ldInt .u64 (.var 1) 1) (.lit .i32 0)] [
      .stByte .u8 (.ldPtr (.var 1) 0) (.ldInt .u64 (.var 1) 1) (.lit .i32 255)],
    .stInt .u64 (.var 1) 1 (.bin .add (.ldInt .u64 (.var 1) 1) (.lit .i32 1))]

/-- `sml_boolean_free` (sml/src/sml_boolean.c:73-77).
```
void sml_boolean_free(sml_boolean *b) {
  if (b) {
    free(b);
  }
}
```
Variables: 0 `b`. -/
def sml_boolean_free : FunDef where
  params := [none]
  res := none
  body := [
    .ite (.var 0) [
      .free (.var 0)] []]

end Sml.C
