import Verif.Source.Lang

/-!
# `sml/src/sml_attention_response.c`

Written by `tools/c2lean.py`.
-/

namespace Sml.C

/-- `sml_attention_response_init` (sml/src/sml_attention_response.c:22-30).
```
sml_attention_response *sml_attention_response_init() {
  sml_attention_response *msg = (sml_attention_response *)malloc(sizeof(sml_attention_response));
  *msg = (sml_attention_response){.server_id = NULL,
                  .attention_number = NULL,
                  .attention_message = NULL,
                  .attention_details = NULL};

  return msg;
}
```
Variables: 0 `msg`. -/
def sml_attention_response_init : FunDef where
  params := []
  res := none
  body := [
    .setPtr 0 (.mallocRec 4 0),
    .stRec (.var 0) [.null, .null, .null, .null] [],
    .ret (.var 0)]

/-- `sml_attention_response_parse` (sml/src/sml_attention_response.c:32-66).
```
sml_attention_response *sml_attention_response_parse(sml_buffer *buf) {
  sml_attention_response *msg = sml_attention_response_init();

  if (sml_buf_get_next_type(buf) != SML_TYPE_LIST) {
    buf->error = 1;
    goto error;
  }

  if (sml_buf_get_next_length(buf) != 4) {
    buf->error = 1;
    goto error;
  }

  msg->server_id = sml_octet_string_parse(buf);
  if (sml_buf_has_errors(buf))
    goto error;

  msg->attention_number = sml_octet_string_parse(buf);
  if (sml_buf_has_errors(buf))
    goto error;

  msg->attention_message = sml_octet_string_parse(buf);
  if (sml_buf_has_errors(buf))
    goto error;

  msg->attention_details = sml_tree_parse(buf);
  if (sml_buf_has_errors(buf))
    goto error;

  return msg;

error:
  sml_attention_response_free(msg);
  return NULL;
}
```
Variables: 0 `buf`, 1 `msg`. Labels: 0 `error`. -/
def sml_attention_response_parse : FunDef where
  params := [none]
  res := none
  body := [
    .setPtr 1 (.call .sml_attention_response_init []),
    .ite (.bin .ne (.call .sml_buf_get_next_type [.var 0]) (.lit .i32 112)) [
      .stInt .i32 (.var 0) 2 (.lit .i32 1),
      .goto 0] [],
    .ite (.bin .ne (.call .sml_buf_get_next_length [.var 0]) (.lit .i32 4)) [
      .stInt .i32 (.var 0) 2 (.lit .i32 1),
      .goto 0] [],
    .stPtr (.var 1) 0 (.call .sml_octet_string_parse [.var 0]),
    .ite (.call .sml_buf_has_errors [.var 0]) [
      .goto 0] [],
    .stPtr (.var 1) 1 (.call .sml_octet_string_parse [.var 0]),
    .ite (.call .sml_buf_has_errors [.var 0]) [
      .goto 0] [],
    .stPtr (.var 1) 2 (.call .sml_octet_string_parse [.var 0]),
    .ite (.call .sml_buf_has_errors [.var 0]) [
      .goto 0] [],
    .stPtr (.var 1) 3 (.call .sml_tree_parse [.var 0]),
    .ite (.call .sml_buf_has_errors [.var 0]) [
      .goto 0] [],
    .ret (.var 1),
    .label 0,
    .expr (.call .sml_attention_response_free [.var 1]),
    .ret .null]

/-- `sml_attention_response_write` (sml/src/sml_attention_response.c:68-75).
```
void sml_attention_response_write(sml_attention_response *msg, sml_buffer *buf) {
  sml_buf_set_type_and_length(buf, SML_TYPE_LIST, 4);

  sml_octet_string_write(msg->server_id, buf);
  sml_octet_string_write(msg->attention_number, buf);
  sml_octet_string_write(msg->attention_message, buf);
  sml_tree_write(msg->attention_details, buf);
}
```
Variables: 0 `msg`, 1 `buf`. -/
def sml_attention_response_write : FunDef where
  params := [none, none]
  res := none
  body := [
    .expr (.call .sml_buf_set_type_and_length [.var 1, .lit .i32 112, .lit .i32 4]),
    .expr (.call .sml_octet_string_write [.ldPtr (.var 0) 0, .var 1]),
    .expr (.call .sml_octet_string_write [.ldPtr (.var 0) 1, .var 1]),
    .expr (.call .sml_octet_string_write [.ldPtr (.var 0) 2, .var 1]),
    .expr (.call .sml_tree_write [.ldPtr (.var 0) 3, .var 1])]

/-- `sml_attention_response_free` (sml/src/sml_attention_response.c:77-86).
```
void sml_attention_response_free(sml_attention_response *msg) {
  if (msg) {
    sml_octet_string_free(msg->server_id);
    sml_octet_string_free(msg->attention_number);
    sml_octet_string_free(msg->attention_message);
    sml_tree_free(msg->attention_details);

    free(msg);
  }
}
```
Variables: 0 `msg`. -/
def sml_attention_response_free : FunDef where
  params := [none]
  res := none
  body := [
    .ite (.var 0) [
      .expr (.call .sml_octet_string_free [.ldPtr (.var 0) 0]),
      .expr (.call .sml_octet_string_free [.ldPtr (.var 0) 1]),
      .expr (.call .sml_octet_string_free [.ldPtr (.var 0) 2]),
      .expr (.call .sml_tree_free [.ldPtr (.var 0) 3]),
      .free (.var 0)] []]

end Sml.C
