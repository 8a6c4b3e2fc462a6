import Verif.Source.Lang

/-!
# `sml/src/sml_close_response.c`

Written by `tools/c2lean.py`.
-/

namespace Sml.C

/-- `sml_close_response_init` (sml/src/sml_close_response.c:22-27).
```
sml_close_response *sml_close_response_init() {
  sml_close_response *msg = (sml_close_response *)malloc(sizeof(sml_close_response));
  *msg = (sml_close_response){.global_signature = NULL};

  return msg;
}
```
Variables: 0 `msg`. -/
def sml_close_response_init : FunDef where
  params := []
  res := none
  body := [
    .setPtr 0 (.mallocRec 1 0),
    .stRec (.var 0) [.null] [],
    .ret (.var 0)]

/-- `sml_close_response_parse` (sml/src/sml_close_response.c:29-51).
```
sml_close_response *sml_close_response_parse(sml_buffer *buf) {
  sml_close_response *msg = sml_close_response_init();

  if (sml_buf_get_next_type(buf) != SML_TYPE_LIST) {
    buf->error = 1;
    goto error;
  }

  if (sml_buf_get_next_length(buf) != 1) {
    buf->error = 1;
    goto error;
  }

  msg->global_signature = sml_octet_string_parse(buf);
  if (sml_buf_has_errors(buf))
    goto error;

  return msg;

error:
  sml_close_response_free(msg);
  return NULL;
}
```
Variables: 0 `buf`, 1 `msg`. Labels: 0 `error`. -/
def sml_close_response_parse : FunDef where
  params := [none]
  res := none
  body := [
    .setPtr 1 (.call .sml_close_response_init []),
    .ite (.bin .ne (.call .sml_buf_get_next_type [.var 0]) (.lit .i32 112)) [
      .stInt .i32 (.var 0) 2 (.lit .i32 1),
      .goto 0] [],
    .ite (.bin .ne (.call .sml_buf_get_next_length [.var 0]) (.lit .i32 1)) [
      .stInt .i32 (.var 0) 2 (.lit .i32 1),
      .goto 0] [],
    .stPtr (.var 1) 0 (.call .sml_octet_string_parse [.var 0]),
    .ite (.call .sml_buf_has_errors [.var 0]) [
      .goto 0] [],
    .ret (.var 1),
    .label 0,
    .expr (.call .sml_close_response_free [.var 1]),
    .ret .null]

/-- `sml_close_response_write` (sml/src/sml_close_response.c:53-56).
```
void sml_close_response_write(sml_close_response *msg, sml_buffer *buf) {
  sml_buf_set_type_and_length(buf, SML_TYPE_LIST, 1);
  sml_octet_string_write(msg->global_signature, buf);
}
```
Variables: 0 `msg`, 1 `buf`. -/
def sml_close_response_write : FunDef where
  params := [none, none]
  res := none
  body := [
    .expr (.call .sml_buf_set_type_and_length [.var 1, .lit .i32 112, .lit .i32 1]),
    .expr (.call .sml_octet_string_write [.ldPtr (.var 0) 0, .var 1])]

/-- `sml_close_response_free` (sml/src/sml_close_response.c:58-64).
```
void sml_close_response_free(sml_close_response *msg) {
  if (msg) {
    sml_octet_string_free(msg->global_signature);

    free(msg);
  }
}
```
Variables: 0 `msg`. -/
def sml_close_response_free : FunDef where
  params := [none]
  res := none
  body := [
    .ite (.var 0) [
      .expr (.call .sml_octet_string_free [.ldPtr (.var 0) 0]),
      .free (.var 0)] []]

end Sml.C
