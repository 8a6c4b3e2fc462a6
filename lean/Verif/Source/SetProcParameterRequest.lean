import Verif.Source.Lang

/-!
# `sml/src/sml_set_proc_parameter_request.c`

Written by `tools/c2lean.py`.
-/

namespace Sml.C

/-- `sml_set_proc_parameter_request_init` (sml/src/sml_set_proc_parameter_request.c:21-31).
```
sml_set_proc_parameter_request *sml_set_proc_parameter_request_init() {
  sml_set_proc_parameter_request *msg =
    (sml_set_proc_parameter_request *)malloc(sizeof(sml_set_proc_parameter_request));
  *msg = (sml_set_proc_parameter_request){.server_id = NULL,
                      .username = NULL,
                      .password = NULL,
                      .parameter_tree_path = NULL,
                      .parameter_tree = NULL};

  return msg;
}
```
Variables: 0 `msg`. -/
def sml_set_proc_parameter_request_init : FunDef where
  params := []
  res := none
  body := [
    .setPtr 0 (.mallocRec 5 0),
    .stRec (.var 0) [.null, .null, .null, .null, .null] [],
    .ret (.var 0)]

/-- `sml_set_proc_parameter_request_parse` (sml/src/sml_set_proc_parameter_request.c:33-71).
```
sml_set_proc_parameter_request *sml_set_proc_parameter_request_parse(sml_buffer *buf) {
  sml_set_proc_parameter_request *msg = sml_set_proc_parameter_request_init();

  if (sml_buf_get_next_type(buf) != SML_TYPE_LIST) {
    buf->error = 1;
    goto error;
  }

  if (sml_buf_get_next_length(buf) != 5) {
    buf->error = 1;
    goto error;
  }

  msg->server_id = sml_octet_string_parse(buf);
  if (sml_buf_has_errors(buf))
    goto error;

  msg->username = sml_octet_string_parse(buf);
  if (sml_buf_has_errors(buf))
    goto error;

  msg->password = sml_octet_string_parse(buf);
  if (sml_buf_has_errors(buf))
    goto error;

  msg->parameter_tree_path = sml_tree_path_parse(buf);
  if (sml_buf_has_errors(buf))
    goto error;

  msg->parameter_tree = sml_tree_parse(buf);
  if (sml_buf_has_errors(buf))
    goto error;

  return msg;

error:
  sml_set_proc_parameter_request_free(msg);
  return NULL;
}
```
Variables: 0 `buf`, 1 `msg`. Labels: 0 `error`. -/
def sml_set_proc_parameter_request_parse : FunDef where
  params := [none]
  res := none
  body := [
    .setPtr 1 (.call .sml_set_proc_parameter_request_init []),
    .ite (.bin .ne (.call .sml_buf_get_next_type [.var 0]) (.lit .i32 112)) [
      .stInt .i32 (.var 0) 2 (.lit .i32 1),
      .goto 0] [],
    .ite (.bin .ne (.call .sml_buf_get_next_length [.var 0]) (.lit .i32 5)) [
      .stInt .i32 (.var 0) 2 (.lit .i32 1),
      .goto 0] [],
    .stPtr (.var 1) 0 (.call .sml_octet_string_parse [.var 0]),
    .ite (.call .sml_buf_has_errors [.var 0]) [
      .goto 0] [],
    .stPtr (.var 1) 1 (.call .sml_octet_string_parse [.var 0]),
    .ite (.call .sml_buf_has_errors [.var 0]) [
      .goto 0] [],
    .stPtr (.var 1) 2 (.call .sml_octet_string_parse [.var 0]),
    .ite (.call .sml_buf_has_errors [.var 0]) [
      .goto 0] [],
    .stPtr (.var 1) 3 (.call .sml_tree_path_parse [.var 0]),
    .ite (.call .sml_buf_has_errors [.var 0]) [
      .goto 0] [],
    .stPtr (.var 1) 4 (.call .sml_tree_parse [.var 0]),
    .ite (.call .sml_buf_has_errors [.var 0]) [
      .goto 0] [],
    .ret (.var 1),
    .label 0,
    .expr (.call .sml_set_proc_parameter_request_free [.var 1]),
    .ret .null]

/-- `sml_set_proc_parameter_request_write` (sml/src/sml_set_proc_parameter_request.c:73-80).
```
void sml_set_proc_parameter_request_write(sml_set_proc_parameter_request *msg, sml_buffer *buf) {
  sml_buf_set_type_and_length(buf, SML_TYPE_LIST, 5);
  sml_octet_string_write(msg->server_id, buf);
  sml_octet_string_write(msg->username, buf);
  sml_octet_string_write(msg->password, buf);
  sml_tree_path_write(msg->parameter_tree_path, buf);
  sml_tree_write(msg->parameter_tree, buf);
}
```
Variables: 0 `msg`, 1 `buf`. -/
def sml_set_proc_parameter_request_write : FunDef where
  params := [none, none]
  res := none
  body := [
    .expr (.call .sml_buf_set_type_and_length [.var 1, .lit .i32 112, .lit .i32 5]),
    .expr (.call .sml_octet_string_write [.ldPtr (.var 0) 0, .var 1]),
    .expr (.call .sml_octet_string_write [.ldPtr (.var 0) 1, .var 1]),
    .expr (.call .sml_octet_string_write [.ldPtr (.var 0) 2, .var 1]),
    .expr (.call .sml_tree_path_write [.ldPtr (.var 0) 3, .var 1]),
    .expr (.call .sml_tree_write [.ldPtr (.var 0) 4, .var 1])]

/-- `sml_set_proc_parameter_request_free` (sml/src/sml_set_proc_parameter_request.c:82-92).
```
void sml_set_proc_parameter_request_free(sml_set_proc_parameter_request *msg) {
  if (msg) {
    sml_octet_string_free(msg->server_id);
    sml_octet_string_free(msg->username);
    sml_octet_string_free(msg->password);
    sml_tree_path_free(msg->parameter_tree_path);
    sml_tree_free(msg->parameter_tree);

    free(msg);
  }
}
```
Variables: 0 `msg`. -/
def sml_set_proc_parameter_request_free : FunDef where
  params := [none]
  res := none
  body := [
    .ite (.var 0) [
      .expr (.call .sml_octet_string_free [.ldPtr (.var 0) 0]),
      .expr (.call .sml_octet_string_free [.ldPtr (.var 0) 1]),
      .expr (.call .sml_octet_string_free [.ldPtr (.var 0) 2]),
      .expr (.call .sml_tree_path_free [.ldPtr (.var 0) 3]),
      .expr (.call .sml_tree_free [.ldPtr (.var 0) 4]),
      .free (.var 0)] []]

end Sml.C
