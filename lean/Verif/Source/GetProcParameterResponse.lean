import Verif.Source.Lang

/-!
# `sml/src/sml_get_proc_parameter_response.c`

Written by `tools/c2lean.py`.
-/

namespace Sml.C

/-- `sml_get_proc_parameter_response_init` (sml/src/sml_get_proc_parameter_response.c:22-29).
```
sml_get_proc_parameter_response *sml_get_proc_parameter_response_init() {
  sml_get_proc_parameter_response *msg =
    (sml_get_proc_parameter_response *)malloc(sizeof(sml_get_proc_parameter_response));
  *msg = (sml_get_proc_parameter_response){
    .server_id = NULL, .parameter_tree_path = NULL, .parameter_tree = NULL};

  return msg;
}
```
Variables: 0 `msg`. -/
def sml_get_proc_parameter_response_init : FunDef where
  params := []
  res := none
  body := [
    .setPtr 0 (.mallocRec 3 0),
    .stRec (.var 0) [.null, .null, .null] [],
    .ret (.var 0)]

/-- `sml_get_proc_parameter_response_parse` (sml/src/sml_get_proc_parameter_response.c:31-61).
```
sml_get_proc_parameter_response *sml_get_proc_parameter_response_parse(sml_buffer *buf) {
  sml_get_proc_parameter_response *msg = sml_get_proc_parameter_response_init();

  if (sml_buf_get_next_type(buf) != SML_TYPE_LIST) {
    buf->error = 1;
    goto error;
  }

  if (sml_buf_get_next_length(buf) != 3) {
    buf->error = 1;
    goto error;
  }

  msg->server_id = sml_octet_string_parse(buf);
  if (sml_buf_has_errors(buf))
    goto error;

  msg->parameter_tree_path = sml_tree_path_parse(buf);
  if (sml_buf_has_errors(buf))
    goto error;

  msg->parameter_tree = sml_tree_parse(buf);
  if (sml_buf_has_errors(buf))
    goto error;

  return msg;

error:
  sml_get_proc_parameter_response_free(msg);
  return NULL;
}
```
Variables: 0 `buf`, 1 `msg`. Labels: 0 `error`. -/
def sml_get_proc_parameter_response_parse : FunDef where
  params := [none]
  res := none
  body := [
    .setPtr 1 (.call .sml_get_proc_parameter_response_init []),
    .ite (.bin .ne (.call .sml_buf_get_next_type [.var 0]) (.lit .i32 112)) [
      .stInt .i32 (.var 0) 2 (.lit .i32 1),
      .goto 0] [],
    .ite (.bin .ne (.call .sml_buf_get_next_length [.var 0]) (.lit .i32 3)) [
      .stInt .i32 (.var 0) 2 (.lit .i32 1),
      .goto 0] [],
    .stPtr (.var 1) 0 (.call .sml_octet_string_parse [.var 0]),
    .ite (.call .sml_buf_has_errors [.var 0]) [
      .goto 0] [],
    .stPtr (.var 1) 1 (.call .sml_tree_path_parse [.var 0]),
    .ite (.call .sml_buf_has_errors [.var 0]) [
      .goto 0] [],
    .stPtr (.var 1) 2 (.call .sml_tree_parse [.var 0]),
    .ite (.call .sml_buf_has_errors [.var 0]) [
      .goto 0] [],
    .ret (.var 1),
    .label 0,
    .expr (.call .sml_get_proc_parameter_response_free [.var 1]),
    .ret .null]

/-- `sml_get_proc_parameter_response_write` (sml/src/sml_get_proc_parameter_response.c:63-68).
```
void sml_get_proc_parameter_response_write(sml_get_proc_parameter_response *msg, sml_buffer *buf) {
  sml_buf_set_type_and_length(buf, SML_TYPE_LIST, 3);
  sml_octet_string_write(msg->server_id, buf);
  sml_tree_path_write(msg->parameter_tree_path, buf);
  sml_tree_write(msg->parameter_tree, buf);
}
```
Variables: 0 `msg`, 1 `buf`. -/
def sml_get_proc_parameter_response_write : FunDef where
  params := [none, none]
  res := none
  body := [
    .expr (.call .sml_buf_set_type_and_length [.var 1, .lit .i32 112, .lit .i32 3]),
    .expr (.call .sml_octet_string_write [.ldPtr (.var 0) 0, .var 1]),
    .expr (.call .sml_tree_path_write [.ldPtr (.var 0) 1, .var 1]),
    .expr (.call .sml_tree_write [.ldPtr (.var 0) 2, .var 1])]

/-- `sml_get_proc_parameter_response_free` (sml/src/sml_get_proc_parameter_response.c:70-78).
```
void sml_get_proc_parameter_response_free(sml_get_proc_parameter_response *msg) {
  if (msg) {
    sml_octet_string_free(msg->server_id);
    sml_tree_path_free(msg->parameter_tree_path);
    sml_tree_free(msg->parameter_tree);

    free(msg);
  }
}
```
Variables: 0 `msg`. -/
def sml_get_proc_parameter_response_free : FunDef where
  params := [none]
  res := none
  body := [
    .ite (.var 0) [
      .expr (.call .sml_octet_string_free [.ldPtr (.var 0) 0]),
      .expr (.call .sml_tree_path_free [.ldPtr (.var 0) 1]),
      .expr (.call .sml_tree_free [.ldPtr (.var 0) 2]),
      .free (.var 0)] []]

end Sml.C
