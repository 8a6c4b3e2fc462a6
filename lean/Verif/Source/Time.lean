import Verif.Source.Lang

/-!
# `sml/src/sml_time.c`

Written by `tools/c2lean.py`.
-/

namespace Sml.C

/-- `sml_time_init` (sml/src/sml_time.c:24-28).
```
sml_time *sml_time_init() {
  sml_time *t = (sml_time *)malloc(sizeof(sml_time));
  *t = (sml_time){.tag = NULL, .data.sec_index = NULL};
  return t;
}
```
Variables: 0 `t`. -/
def sml_time_init : FunDef where
  params := []
  res := none
  body := [
    .setPtr 0 (.mallocRec 2 0),
    .stRec (.var 0) [.null, .null] [],
    .ret (.var 0)]

/-- `sml_time_parse` (sml/src/sml_time.c:30-118).
```
sml_time *sml_time_parse(sml_buffer *buf) {
  if (sml_buf_optional_is_skipped(buf)) {
    return NULL;
  }

  sml_time *tme = sml_time_init();

  // workaround Holley DTZ541
  // if SML_ListEntry valTime (SML_Time) is given there are missing bytes:
  // 0x72: indicate a list for SML_Time with 2 entries
  // 0x62 0x01: indicate secIndex
  // instead, the DTZ541 starts with 0x65 + 4 bytes secIndex
  // the workaround will add this information during parsing
  if (sml_buf_get_current_byte(buf) == (SML_TYPE_UNSIGNED | 5)) {
    tme->tag = malloc(sizeof(u8));
    *(tme->tag) = SML_TIME_SEC_INDEX;
  } else {
    if (sml_buf_get_next_type(buf) != SML_TYPE_LIST) {
      buf->error = 1;
      goto error;
    }

    if (sml_buf_get_next_length(buf) != 2) {
      buf->error = 1;
      goto error;
    }

    tme->tag = sml_u8_parse(buf);
    if (sml_buf_has_errors(buf))
      goto error;
  }

  int type = sml_buf_get_next_type(buf);
  switch (type) {
  case SML_TYPE_UNSIGNED:
    tme->data.timestamp = sml_u32_parse(buf);
    if (sml_buf_has_errors(buf))
      goto error;
    break;
  case SML_TYPE_LIST:
    // Some meters (e.g. FROETEC Multiflex ZG22) giving not one uint32
    // as timestamp, but a list of 3 values.
    // Ignoring these values, so that parsing does not fail.
    sml_buf_get_next_length(buf); // should we check the length here?
    u32 *t1 = sml_u32_parse(buf);
    if (sml_buf_has_errors(buf)) {
      if (t1)
        sml_number_free(t1);
      goto error;
    }
    i16 *t2 = sml_i16_parse(buf);
    if (sml_buf_has_errors(buf)) {
      if (t1)
        sml_number_free(t1);
      if (t2)
        sml_number_free(t2);
      goto error;
    }
    i16 *t3 = sml_i16_parse(buf);
    if (sml_buf_has_errors(buf)) {
      if (t1)
        sml_number_free(t1);
      if (t2)
        sml_number_free(t2);
      if (t3)
        sml_number_free(t3);
      goto error;
    }
    fprintf(
      stderr,
      "libsml: error: sml_time as list[3]: ignoring value[0]=%u value[1]=%d value[2]=%d\n",
      t1 ? *t1 : 0, t2 ? *t2 : 0, t3 ? *t3 : 0);
    if (t1)
      sml_number_free(t1);
    if (t2)
      sml_number_free(t2);
    if (t3)
      sml_number_free(t3);
    break;
  default:
    goto error;
  }

  return tme;

error:
  sml_time_free(tme);
  return NULL;
}
```
Variables: 0 `buf`, 1 `tme`, 2 `type`, 3 `t1`, 4 `t2`, 5 `t3`. Labels: 0 `error`. -/
def sml_time_parse : FunDef where
  params := [none]
  res := none
  body := [
    .ite (.call .sml_buf_optional_is_skipped [.var 0]) [
      .ret .null] [],
    .setPtr 1 (.call .sml_time_init []),
    .ite (.bin .eq (.call .sml_buf_get_current_byte [.var 0]) (.lit .i32 101)) [
      .stPtr (.var 1) 0 (.mallocBytes (.lit .u64 1)),
      .stDeref .u8 (.ldPtr (.var 1) 0) (.lit .i32 1)] [
      .ite (.bin .ne (.call .sml_buf_get_next_type [.var 0]) (.lit .i32 112)) [
        .stInt .i32 (.var 0) 2 (.lit .i32 1),
        .goto 0] [],
      .ite (.bin .ne (.call .sml_buf_get_next_length [.var 0]) (.lit .i32 2)) [
        .stInt .i32 (.var 0) 2 (.lit .i32 1),
        .goto 0] [],
      .stPtr (.var 1) 0 (.call .sml_number_parse [.var 0, .lit .i32 96, .lit .u64 1]),
      .ite (.call .sml_buf_has_errors [.var 0]) [
        .goto 0] []],
    .set .i32 2 (.call .sml_buf_get_next_type [.var 0]),
    .switch (.var 2) [
      .case 96,
      .stPtr (.var 1) 1 (.call .sml_number_parse [.var 0, .lit .i32 96, .lit .u64 4]),
      .ite (.call .sml_buf_has_errors [.var 0]) [
        .goto 0] [],
      .brk,
      .case 112,
      .expr (.call .sml_buf_get_next_length [.var 0]),
      .setPtr 3 (.call .sml_number_parse [.var 0, .lit .i32 96, .lit .u64 4]),
      .ite (.call .sml_buf_has_errors [.var 0]) [
        .ite (.var 3) [
          .expr (.call .sml_number_free [.var 3])] [],
        .goto 0] [],
      .setPtr 4 (.call .sml_number_parse [.var 0, .lit .i32 80, .lit .u64 2]),
      .ite (.call .sml_buf_has_errors [.var 0]) [
        .ite (.var 3) [
          .expr (.call .sml_number_free [.var 3])] [],
        .ite (.var 4) [
          .expr (.call .sml_number_free [.var 4])] [],
        .goto 0] [],
      .setPtr 5 (.call .sml_number_parse [.var 0, .lit .i32 80, .lit .u64 2]),
      .ite (.call .sml_buf_has_errors [.var 0]) [
        .ite (.var 3) [
          .expr (.call .sml_number_free [.var 3])] [],
        .ite (.var 4) [
          .expr (.call .sml_number_free [.var 4])] [],
        .ite (.var 5) [
          .expr (.call .sml_number_free [.var 5])] [],
        .goto 0] [],
      .print [.cond (.var 3) (.deref .u32 (.var 3)) (.lit .i32 0), .cond (.var 4) (.deref .i16 (.var 4)) (.lit .i32 0), .cond (.var 5) (.deref .i16 (.var 5)) (.lit .i32 0)],
      .ite (.var 3) [
        .expr (.call .sml_number_free [.var 3])] [],
      .ite (.var 4) [
        .expr (.call .sml_number_free [.var 4])] [],
      .ite (.var 5) [
        .expr (.call .sml_number_free [.var 5])] [],
      .brk,
      .dflt,
      .goto 0],
    .ret (.var 1),
    .label 0,
    .expr (.call .sml_time_free [.var 1]),
    .ret .null]

/-- `sml_time_write` (sml/src/sml_time.c:120-129).
```
void sml_time_write(sml_time *t, sml_buffer *buf) {
  if (t == 0) {
    sml_buf_optional_write(buf);
    return;
  }

  sml_buf_set_type_and_length(buf, SML_TYPE_LIST, 2);
  sml_u8_write(t->tag, buf);
  sml_u32_write(t->data.timestamp, buf);
}
```
Variables: 0 `t`, 1 `buf`. -/
def sml_time_write : FunDef where
  params := [none, none]
  res := none
  body := [
    .ite (.bin .eq (.var 0) .null) [
      .expr (.call .sml_buf_optional_write [.var 1]),
      .retVoid] [],
    .expr (.call .sml_buf_set_type_and_length [.var 1, .lit .i32 112, .lit .i32 2]),
    .expr (.call .sml_number_write [.ldPtr (.var 0) 0, .lit .i32 96, .lit .u64 1, .var 1]),
    .expr (.call .sml_number_write [.ldPtr (.var 0) 1, .lit .i32 96, .lit .u64 4, .var 1])]

/-- `sml_time_free` (sml/src/sml_time.c:131-137).
```
void sml_time_free(sml_time *tme) {
  if (tme) {
    sml_number_free(tme->tag);
    sml_number_free(tme->data.timestamp);
    free(tme);
  }
}
```
Variables: 0 `tme`. -/
def sml_time_free : FunDef where
  params := [none]
  res := none
  body := [
    .ite (.var 0) [
      .expr (.call .sml_number_free [.ldPtr (.var 0) 0]),
      .expr (.call .sml_number_free [.ldPtr (.var 0) 1]),
      .free (.var 0)] []]

end Sml.C
