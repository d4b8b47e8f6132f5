import Verif.SpecTimes
/-!
# The standard library

The file Library/fuellib.fuel as text and as program.
-/

set_option maxRecDepth 20000

namespace Fuel.Spec.Core

/-- A definition in the library: a function or a macro. -/
inductive LibItem where
  | fn (name : Str) (params : List Str) (body : Sexp)
  | mac (name : Str) (params : List Str) (body : List Sexp)

/-- The definition as expression. -/
def LibItem.code : LibItem → Sexp
  | .fn n ps body => defnCode n ps body
  | .mac n ps body => ap c!"define-macro-eval" [.sym n, .list (ps.map .sym), .list body]

/-- Library/fuellib.fuel 31-33: the body of `isNET`. -/
def isNETBody : Sexp :=
  ap c!"==" [ap c!"nth" [.int 1, ap c!"platform" []], .str c!".NET"]

/-- Library/fuellib.fuel 36-38: the body of `isCpp`. -/
def isCppBody : Sexp :=
  ap c!"==" [ap c!"nth" [.int 1, ap c!"platform" []], .str c!"C++"]

/-- Library/fuellib.fuel 41-43: the body of `isHaxe`. -/
def isHaxeBody : Sexp :=
  ap c!"==" [ap c!"nth" [.int 1, ap c!"platform" []], .str c!"haxe"]

/-- Library/fuellib.fuel 61-63: the body of `dict-len`. -/
def dictLenBody : Sexp :=
  ap c!"len" [.sym c!"d"]

/-- Library/fuellib.fuel 100-127: the body of the macro `defstruct`. -/
def defstructBody : List Sexp :=
  [.sym c!"do",
    ap c!"eval" [
    ap c!"list" [
      .pre .quote (.sym c!"defn"),
      ap c!"sym" [ap c!"+" [.str c!"make-", .sym c!"name"]],
      ap c!"cdr" [ap c!"quoted-macro-args" []],
      .pre .quasi (ap c!"list" [
          .pre .unquote (ap c!"sym" [ap c!"+" [.str c!"#", .sym c!"name"]]),
          .pre .splice (ap c!"cdr" [ap c!"quoted-macro-args" []])])]],
    ap c!"eval" [
    ap c!"list" [
      .pre .quote (.sym c!"defn"),
      ap c!"sym" [ap c!"+" [.str c!"is-", .sym c!"name", .str c!"-p"]],
      .pre .quote (ap c!"data" []),
      .pre .quasi (ap c!"and" [
          ap c!"==" [ap c!"type" [.sym c!"data"], .int 6],
          ap c!"==" [ap c!"first" [.sym c!"data"], .pre .unquote (ap c!"sym" [ap c!"+" [.str c!"#", .sym c!"name"]])]])]],
    ap c!"dotimes" [
    ap c!"__i" [ap c!"-" [ap c!"len" [ap c!"quoted-macro-args" []], .int 1]],
    ap c!"eval" [
      ap c!"list" [
        .pre .quote (.sym c!"defn"),
        ap c!"sym" [
          ap c!"+" [
            .str c!"get-",
            .sym c!"name",
            .str c!"-",
            ap c!"str" [ap c!"nth" [ap c!"+" [.sym c!"__i", .int 1], ap c!"quoted-macro-args" []]]]],
        .pre .quote (ap c!"data" []),
        .pre .quasi (ap c!"nth" [ap c!"+" [.pre .unquote (.sym c!"__i"), .int 1], .sym c!"data"])]]],
    ap c!"delvar" [.pre .quote (.sym c!"__i")]]

/-- Library/fuellib.fuel 159-166: the body of `arg-list-with-obj-expression`. -/
def argListWithObjExpressionBody : Sexp :=
  ap c!"do" [
    ap c!"def" [.sym c!"result", ap c!"list" []],
    ap c!"setf" [.sym c!"result", ap c!"append" [.sym c!"result", ap c!"list" [.sym c!"obj"]]],
    ap c!"setf" [.sym c!"result", ap c!"append" [.sym c!"result", ap c!"arg-list-expression" [.sym c!"argcount"]]],
    ap c!"return" [.sym c!"result"]]

/-- Library/fuellib.fuel 169-188: the body of `create-call-expression`. -/
def createCallExpressionBody : Sexp :=
  ap c!"do" [
    ap c!"def" [.sym c!"_result", ap c!"list" []],
    ap c!"setf" [.sym c!"_result", ap c!"append" [.sym c!"_result", ap c!"list" [.sym c!"callfcn"]]],
    ap c!"if" [
      ap c!"!=" [.sym c!"obj", .list []],
      ap c!"setf" [.sym c!"_result", ap c!"append" [.sym c!"_result", ap c!"list" [.sym c!"obj"]]],
      ap c!"nop" []],
    ap c!"setf" [.sym c!"_result", ap c!"append" [.sym c!"_result", ap c!"list" [ap c!"sym" [.sym c!"methodname"]]]],
    ap c!"def" [.sym c!"i", .int 0],
    ap c!"while" [
      ap c!"<" [.sym c!"i", .sym c!"argcount"],
      ap c!"do" [
        ap c!"setf" [
          .sym c!"_result",
          ap c!"append" [.sym c!"_result", ap c!"list" [ap c!"sym" [ap c!"+" [.str c!"p", ap c!"string" [.sym c!"i"]]]]]],
        ap c!"setf" [.sym c!"i", ap c!"+" [.sym c!"i", .int 1]]]],
    .pre .quote (ap c!"println" [.sym c!"_result"]),
    ap c!"return" [.sym c!"_result"]]

/-- Library/fuellib.fuel 191-209: the body of `create-native-method-expression`. -/
def createNativeMethodExpressionBody : Sexp :=
  ap c!"do" [
    ap c!"def" [.sym c!"code", ap c!"list" []],
    ap c!"setf" [.sym c!"code", ap c!"append" [.sym c!"code", ap c!"list" [.pre .quote (.sym c!"defn")]]],
    ap c!"setf" [.sym c!"code", ap c!"append" [.sym c!"code", ap c!"list" [ap c!"string" [.sym c!"lisp-prefix", .sym c!"name"]]]],
    ap c!"if" [
      .sym c!"isStatic",
      ap c!"do" [
        ap c!"setf" [.sym c!"code", ap c!"append" [.sym c!"code", ap c!"list" [ap c!"arg-list-expression" [.sym c!"argcount"]]]],
        ap c!"setf" [
          .sym c!"code",
          ap c!"append" [
            .sym c!"code",
            ap c!"list" [
              ap c!"create-call-expression" [
                .pre .quote (.sym c!"call-static"),
                .sym c!"netName",
                .sym c!"full-class-name",
                .sym c!"argcount"]]]]],
      ap c!"do" [
        ap c!"setf" [
          .sym c!"code",
          ap c!"append" [
            .sym c!"code",
            ap c!"list" [ap c!"arg-list-with-obj-expression" [.pre .quote (.sym c!"obj"), .sym c!"argcount"]]]],
        ap c!"setf" [
          .sym c!"code",
          ap c!"append" [
            .sym c!"code",
            ap c!"list" [
              ap c!"create-call-expression" [
                .pre .quote (.sym c!"call"),
                .sym c!"netName",
                .pre .quote (.sym c!"obj"),
                .sym c!"argcount"]]]]]],
    ap c!"return" [.sym c!"code"]]

/-- Library/fuellib.fuel 212-258: the body of `create-native`. -/
def createNativeBody : Sexp :=
  ap c!"do" [
    ap c!"def" [.sym c!"result", .str c!"(do "],
    ap c!"setf" [.sym c!"result", ap c!"+" [.sym c!"result", .str c!"(defn "]],
    ap c!"setf" [
      .sym c!"result",
      ap c!"+" [.sym c!"result", ap c!"str" [ap c!"sym" [ap c!"string" [.str c!"create-", .sym c!"lisp-name"]]]]],
    ap c!"setf" [.sym c!"result", ap c!"+" [.sym c!"result", .str c!" () "]],
    ap c!"setf" [.sym c!"result", ap c!"+" [.sym c!"result", .str c!"(call "]],
    ap c!"setf" [.sym c!"result", ap c!"+" [.sym c!"result", .str c!"\"", ap c!"str" [.sym c!"full-class-name"], .str c!"\""]],
    ap c!"setf" [.sym c!"result", ap c!"+" [.sym c!"result", .str c!"))"]],
    ap c!"def" [.sym c!"methodInfos", ap c!"native-methods" [.sym c!"full-class-name"]],
    ap c!"foreach" [
      .sym c!"methodInfos",
      ap c!"lambda" [
        ap c!"methodNameAndArgCount" [],
        ap c!"do" [
          ap c!"def" [.sym c!"methodName", ap c!"first" [.sym c!"methodNameAndArgCount"]],
          ap c!"def" [.sym c!"methodArgsCount", ap c!"nth" [.int 1, .sym c!"methodNameAndArgCount"]],
          ap c!"def" [.sym c!"isStatic", ap c!"nth" [.int 2, .sym c!"methodNameAndArgCount"]],
          ap c!"def" [.sym c!"netMethodName", ap c!"nth" [.int 3, .sym c!"methodNameAndArgCount"]],
          ap c!"def" [
            .sym c!"method-expr",
            ap c!"create-native-method-expression" [
              ap c!"+" [ap c!"str" [.sym c!"lisp-name"], .str c!"-"],
              .sym c!"full-class-name",
              .sym c!"methodName",
              .sym c!"netMethodName",
              .sym c!"isStatic",
              .sym c!"methodArgsCount"]],
          ap c!"setf" [.sym c!"result", ap c!"+" [.sym c!"result", ap c!"str" [.sym c!"method-expr"]]]]]],
    ap c!"def" [.sym c!"fieldInfos", ap c!"native-fields" [.sym c!"full-class-name"]],
    ap c!"foreach" [
      .sym c!"fieldInfos",
      ap c!"lambda" [
        ap c!"fieldName" [],
        ap c!"do" [
          ap c!"def" [
            .sym c!"field-expr",
            ap c!"list" [
              .pre .quote (.sym c!"def"),
              ap c!"sym" [ap c!"string" [.sym c!"lisp-name", .str c!"-", .sym c!"fieldName"]],
              ap c!"list" [.pre .quote (.sym c!"field"), .sym c!"full-class-name", .sym c!"fieldName"]]],
          ap c!"setf" [.sym c!"result", ap c!"+" [.sym c!"result", ap c!"str" [.sym c!"field-expr"]]]]]],
    ap c!"setf" [.sym c!"result", ap c!"+" [.sym c!"result", .str c!")"]],
    ap c!"return" [.sym c!"result"]]

/-- Library/fuellib.fuel 30-253: the functions and macros of the library in order. -/
def libItems : List LibItem :=
  [.fn c!"isNET" [] isNETBody,
    .fn c!"isCpp" [] isCppBody,
    .fn c!"isHaxe" [] isHaxeBody,
    .fn c!"second" [c!"l"] secondBody,
    .fn c!"length" [c!"l"] lengthBody,
    .fn c!"strlen" [c!"s"] strlenBody,
    .fn c!"dict-len" [c!"d"] dictLenBody,
    .fn c!"find" [c!"key", c!"_list"] findBody,
    .mac c!"dotimes" [c!"counterinfo", c!"statements"] dotimesBody,
    .mac c!"setq" [c!"symbol", c!"value"] setqBody,
    .mac c!"defstruct" [c!"name"] defstructBody,
    .fn c!"foreach" [c!"container", c!"fcn"] foreachBody,
    .fn c!"arg-list-expression" [c!"argcount"] argListBody,
    .fn c!"arg-list-with-obj-expression" [c!"obj", c!"argcount"] argListWithObjExpressionBody,
    .fn c!"create-call-expression" [c!"callfcn", c!"methodname", c!"obj", c!"argcount"] createCallExpressionBody,
    .fn c!"create-native-method-expression" [c!"lisp-prefix", c!"full-class-name", c!"name", c!"netName", c!"isStatic", c!"argcount"] createNativeMethodExpressionBody,
    .fn c!"create-native" [c!"lisp-name", c!"full-class-name"] createNativeBody]

/-- Library/fuellib.fuel 261-271: what is done on .NET only. -/
def netItems : Sexp :=
  ap c!"do" [
    ap c!"evalstr" [ap c!"create-native" [.str c!"Math", .str c!"System.Math"]],
    ap c!"evalstr" [ap c!"create-native" [.str c!"File", .str c!"System.IO.File"]],
    ap c!"evalstr" [ap c!"create-native" [.str c!"FileInfo", .str c!"System.IO.FileInfo"]],
    ap c!"evalstr" [ap c!"create-native" [.str c!"Directory", .str c!"System.IO.Directory"]],
    ap c!"evalstr" [ap c!"create-native" [.str c!"List", .str c!"System.Collections.Generic.List`1[[System.Object]]"]],
    ap c!"evalstr" [ap c!"create-native" [.str c!"Array", .str c!"System.Object[]"]],
    ap c!"evalstr" [
      ap c!"create-native" [.str c!"Dict", .str c!"System.Collections.Generic.Dictionary`2[[System.Object],[System.Object]]"]]]

/-- Library/fuellib.fuel: the program, one `do` form. -/
def libProgram : List Sexp := [.list (.sym c!"do" :: (libItems.map LibItem.code ++ [ap c!"if" [ap c!"isNET" [], netItems], ap c!"nop" []]))]

/-- Library/fuellib.fuel: the lines 1 to 40 of the file. -/
def libLines1 : List Str :=
  [c!";;\r\n",
    c!";; FUEL(isp) is a fast usable embeddable lisp interpreter.\r\n",
    c!";;\r\n",
    c!";; Copyright (c) 2016 Michael Neuroth\r\n",
    c!";;\r\n",
    c!";; Permission is hereby granted, free of charge, to any person obtaining \r\n",
    c!";; a copy of this software and associated documentation files (the \"Software\"), \r\n",
    c!";; to deal in the Software without restriction, including without limitation \r\n",
    c!";; the rights to use, copy, modify, merge, publish, distribute, sublicense, \r\n",
    c!";; and/or sell copies of the Software, and to permit persons to whom the \r\n",
    c!";; Software is furnished to do so, subject to the following conditions:\r\n",
    c!";; \r\n",
    c!";; The above copyright notice and this permission notice shall be included \r\n",
    c!";; in all copies or substantial portions of the Software.\r\n",
    c!";; \r\n",
    c!";; THE SOFTWARE IS PROVIDED \"AS IS\", WITHOUT WARRANTY OF ANY KIND, EXPRESS \r\n",
    c!";; OR IMPLIED, INCLUDING BUT NOT LIMITED TO THE WARRANTIES OF MERCHANTABILITY, \r\n",
    c!";; FITNESS FOR A PARTICULAR PURPOSE AND NONINFRINGEMENT. IN NO EVENT SHALL \r\n",
    c!";; THE AUTHORS OR COPYRIGHT HOLDERS BE LIABLE FOR ANY CLAIM, DAMAGES OR \r\n",
    c!";; OTHER LIABILITY, WHETHER IN AN ACTION OF CONTRACT, TORT OR OTHERWISE, \r\n",
    c!";; ARISING FROM, OUT OF OR IN CONNECTION WITH THE SOFTWARE OR THE USE OR \r\n",
    c!";; OTHER DEALINGS IN THE SOFTWARE.\r\n",
    c!";; \r\n",
    c!";;====================================\r\n",
    c!";; standard library for fuel language\r\n",
    c!";;====================================\r\n",
    c!"\r\n",
    c!"(do\r\n",
    c!"   \r\n",
    c!"  ;; return #t if script runs on a .NET platform\r\n",
    c!"  (defn isNET ()\r\n",
    c!"    (== (nth 1 (platform)) \".NET\")\r\n",
    c!"  )\r\n",
    c!"\r\n",
    c!"  ;; return #t if script runs on a native C++ platform\r\n",
    c!"  (defn isCpp ()\r\n",
    c!"    (== (nth 1 (platform)) \"C++\")\r\n",
    c!"  )\r\n",
    c!"\r\n",
    c!"  ;; return #t if script runs on a haxe platform\r\n"]

/-- Library/fuellib.fuel: the lines 41 to 80 of the file. -/
def libLines2 : List Str :=
  [c!"  (defn isHaxe ()\r\n",
    c!"    (== (nth 1 (platform)) \"haxe\")\r\n",
    c!"  )\r\n",
    c!"\r\n",
    c!"  ;; return the secod element of a list or a string\r\n",
    c!"  (defn second (l)\r\n",
    c!"      (first (cdr l))\r\n",
    c!"  )\r\n",
    c!"\r\n",
    c!"  ;; return the length of a list or a string \r\n",
    c!"  (defn length (l)\r\n",
    c!"      (len l)\r\n",
    c!"  )\r\n",
    c!"\r\n",
    c!"  ;; returns the length of a string  \r\n",
    c!"  (defn strlen (s)\r\n",
    c!"      (len s)\r\n",
    c!"  )\r\n",
    c!"\r\n",
    c!"  ;; returns the number of key/value items in a dictionary\r\n",
    c!"  (defn dict-len (d)\r\n",
    c!"      (len d)\r\n",
    c!"  )\r\n",
    c!"\r\n",
    c!"  ;; returns index or position of key if the key is found in the list or string\r\n",
    c!"  (defn find (key _list)\r\n",
    c!"    (do\r\n",
    c!"        (def i 0)\r\n",
    c!"        (while (< i (len _list))\r\n",
    c!"           (do\r\n",
    c!"               (if (== key (nth i _list))\r\n",
    c!"                  (return i)\r\n",
    c!"               )\r\n",
    c!"               (setf i (+ i 1))\r\n",
    c!"           )\r\n",
    c!"        )\r\n",
    c!"        (return -1)\r\n",
    c!"    )\r\n",
    c!"  )\r\n",
    c!"\r\n"]

/-- Library/fuellib.fuel: the lines 81 to 120 of the file. -/
def libLines3 : List Str :=
  [c!"  ;; implement dotimes function: example: (dotimes (c 10) (println c))\r\n",
    c!"  (define-macro-eval dotimes (counterinfo statements)\r\n",
    c!"      (do\r\n",
    c!"        (def (first 'counterinfo) 0)\r\n",
    c!"        (while (eval (list < (first 'counterinfo) (eval (nth 1 'counterinfo))))\r\n",
    c!"          (do\r\n",
    c!"             (eval 'statements)\r\n",
    c!"             (setf (rval (first 'counterinfo)) (eval (list + (first 'counterinfo) 1)))\r\n",
    c!"          )\r\n",
    c!"        )\r\n",
    c!"        (delvar (first 'counterinfo))\r\n",
    c!"      )\r\n",
    c!"  )\r\n",
    c!"\r\n",
    c!"  (define-macro-eval setq (symbol value)\r\n",
    c!"    (setf symbol value)\r\n",
    c!"  )\r\n",
    c!"\r\n",
    c!"  ;; macro to define structs, example: (defstruct point x y) creates a struct with name point which has two fields with name x and y\r\n",
    c!"  (define-macro-eval defstruct (name)\r\n",
    c!"    (do\r\n",
    c!"        \r\n",
    c!"      (eval \r\n",
    c!"        (list 'defn (sym (+ \"make-\" name)) (cdr (quoted-macro-args)) \r\n",
    c!"            `(list ,(sym (+ \"#\" name)) ,@(cdr (quoted-macro-args)))\r\n",
    c!"         )\r\n",
    c!"      )\r\n",
    c!"\r\n",
    c!"    (eval \r\n",
    c!"        (list 'defn (sym (+ \"is-\" name \"-p\")) '(data) \r\n",
    c!"            `(and (== (type data) 6) (== (first data) ,(sym (+ \"#\" name))))\r\n",
    c!"         )\r\n",
    c!"    )\r\n",
    c!"\r\n",
    c!"    (dotimes (__i (- (len (quoted-macro-args)) 1))\r\n",
    c!"        (eval\r\n",
    c!"            (list 'defn (sym (+ \"get-\" name \"-\" (str (nth (+ __i 1) (quoted-macro-args))))) '(data)\r\n",
    c!"            `(nth (+ ,__i 1) data)  \r\n",
    c!"               ;; TODO: handle case when (need-l-value) is #t --> return l-value of struct list\r\n",
    c!"            )\r\n"]

/-- Library/fuellib.fuel: the lines 121 to 160 of the file. -/
def libLines4 : List Str :=
  [c!"        )\r\n",
    c!"      )\r\n",
    c!"      \r\n",
    c!"      ;; remove temporary local variable needed for code generation\r\n",
    c!"      (delvar '__i)\r\n",
    c!"    )\r\n",
    c!"  )\r\n",
    c!"\r\n",
    c!"  ;; foreach loop, example: (foreach '(1 2 3) (lambda (x) (println x)))  \r\n",
    c!"  (defn foreach (container fcn) \r\n",
    c!"     (do \r\n",
    c!"       (def __i 0)\r\n",
    c!"       (def max (len container))\r\n",
    c!"       (while (< __i max)\r\n",
    c!"          (do \r\n",
    c!"            (apply fcn (list (nth __i container)))\r\n",
    c!"            (setf __i (+ __i 1))\r\n",
    c!"          )\r\n",
    c!"    )\r\n",
    c!"    )\r\n",
    c!"  )\r\n",
    c!"\r\n",
    c!"  ;; create list of symbols count=4 --> (p1 p2 p3 p4)\r\n",
    c!"  (defn arg-list-expression (argcount)\r\n",
    c!"     (do\r\n",
    c!"         (def result (list))\r\n",
    c!"         (def i 0)\r\n",
    c!"         (while (< i argcount)\r\n",
    c!"           (do \r\n",
    c!"             (setf result (append result (list (sym (+ \"p\" (string i))))))\r\n",
    c!"             (setf i (+ i 1))\r\n",
    c!"           )\r\n",
    c!"         )\r\n",
    c!"         (return result)\r\n",
    c!"     )\r\n",
    c!"  )\r\n",
    c!"\r\n",
    c!"  ;; create list of symbols count=4 --> (obj p1 p2 p3 p4)\r\n",
    c!"  (defn arg-list-with-obj-expression (obj argcount)\r\n",
    c!"     (do\r\n"]

/-- Library/fuellib.fuel: the lines 161 to 200 of the file. -/
def libLines5 : List Str :=
  [c!"         (def result (list))\r\n",
    c!"         (setf result (append result (list obj)))\r\n",
    c!"         (setf result (append result (arg-list-expression argcount)))\r\n",
    c!"         (return result)\r\n",
    c!"     )\r\n",
    c!"  )\r\n",
    c!"  \r\n",
    c!"  ;; create list of symbols: (call obj methodname p1 p2 p3 p4)\r\n",
    c!"  (defn create-call-expression (callfcn methodname obj argcount)\r\n",
    c!"      (do\r\n",
    c!"         (def _result (list))\r\n",
    c!"         (setf _result (append _result (list callfcn)))\r\n",
    c!"         (if (!= obj ())\r\n",
    c!"            (setf _result (append _result (list obj)))\r\n",
    c!"            (nop)\r\n",
    c!"         )\r\n",
    c!"         (setf _result (append _result (list (sym methodname))))\r\n",
    c!"         (def i 0)\r\n",
    c!"         (while (< i argcount)\r\n",
    c!"           (do \r\n",
    c!"             (setf _result (append _result (list (sym (+ \"p\" (string i))))))\r\n",
    c!"             (setf i (+ i 1))\r\n",
    c!"           )\r\n",
    c!"         )\r\n",
    c!"         '(println _result)\r\n",
    c!"         (return _result)\r\n",
    c!"      )\r\n",
    c!"  )\r\n",
    c!"\r\n",
    c!"  ;; create something like (gdef name (obj p1 p2 ...) (<code>))\r\n",
    c!"  (defn create-native-method-expression (lisp-prefix full-class-name name netName isStatic argcount) \r\n",
    c!"      (do \r\n",
    c!"          (def code (list))\r\n",
    c!"          (setf code (append code (list 'defn)))\r\n",
    c!"          (setf code (append code (list (string lisp-prefix name))))\r\n",
    c!"          (if isStatic\r\n",
    c!"             (do \r\n",
    c!"               (setf code (append code (list (arg-list-expression argcount))))\r\n",
    c!"               (setf code (append code (list (create-call-expression 'call-static netName full-class-name argcount))))\r\n",
    c!"             )\r\n"]

/-- Library/fuellib.fuel: the lines 201 to 240 of the file. -/
def libLines6 : List Str :=
  [c!"             (do \r\n",
    c!"               (setf code (append code (list (arg-list-with-obj-expression 'obj argcount))))             \r\n",
    c!"               (setf code (append code (list (create-call-expression 'call netName 'obj argcount))))\r\n",
    c!"             )\r\n",
    c!"          )\r\n",
    c!"          ;(println \"---->\" code)\r\n",
    c!"          (return code)\r\n",
    c!"      )\r\n",
    c!"  )\r\n",
    c!"  \r\n",
    c!"  ;; create lisp functions for a native class  \r\n",
    c!"  (defn create-native (lisp-name full-class-name) \r\n",
    c!"        (do\r\n",
    c!"            (def result \"(do \")\r\n",
    c!"            ; inspect class and generate for all public properties and methods method stubs\r\n",
    c!"            (setf result (+ result \"(defn \"))\r\n",
    c!"            (setf result (+ result (str (sym (string \"create-\" lisp-name)))))\r\n",
    c!"            (setf result (+ result \" () \"))\r\n",
    c!"            (setf result (+ result \"(call \"))\r\n",
    c!"            (setf result (+ result \"\\\"\" (str full-class-name) \"\\\"\"))\r\n",
    c!"            (setf result (+ result \"))\"))\r\n",
    c!"            ;(setf result (+ result (str '(gdefn (sym (string \"create-\" lisp-name)) () (call full-class-name)))))\r\n",
    c!"            ;(setf result (str '(gdefn (sym (string \"create-\" lisp-name)) () (call full-class-name))))\r\n",
    c!"\r\n",
    c!"            (def methodInfos (native-methods full-class-name))\r\n",
    c!"            (foreach methodInfos \r\n",
    c!"               (lambda (methodNameAndArgCount) \r\n",
    c!"                 (do \r\n",
    c!"                     (def methodName (first methodNameAndArgCount))\r\n",
    c!"                     (def methodArgsCount (nth 1 methodNameAndArgCount))\r\n",
    c!"                     (def isStatic (nth 2 methodNameAndArgCount))\r\n",
    c!"                     (def netMethodName (nth 3 methodNameAndArgCount))\r\n",
    c!"                     (def method-expr (create-native-method-expression (+ (str lisp-name) \"-\") full-class-name methodName netMethodName isStatic methodArgsCount))\r\n",
    c!"                     ;(eval method-expr)\r\n",
    c!"                     (setf result (+ result (str method-expr)))\r\n",
    c!"                     ;(println method-expr)\r\n",
    c!"                     ;(def method (create-native-method (+ (str lisp-name) \"-\") methodName methodArgsCount))\r\n",
    c!"                     ;(evalstr method)\r\n",
    c!"                 )\r\n",
    c!"               )\r\n"]

/-- Library/fuellib.fuel: the lines 241 to 279 of the file. -/
def libLines7 : List Str :=
  [c!"            )\r\n",
    c!"\r\n",
    c!"            (def fieldInfos (native-fields full-class-name))\r\n",
    c!"            (foreach fieldInfos \r\n",
    c!"               (lambda (fieldName) \r\n",
    c!"                  (do \r\n",
    c!"                     ;\t(gdef Math-PI (field System.Math PI))\r\n",
    c!"                     (def field-expr (list 'def (sym (string lisp-name \"-\" fieldName)) (list 'field full-class-name fieldName) ))\r\n",
    c!"                     ;(eval field-expr)\r\n",
    c!"                     (setf result (+ result (str field-expr)))\r\n",
    c!"                  )\r\n",
    c!"               )\r\n",
    c!"            )\r\n",
    c!"            (setf result (+ result \")\"))\r\n",
    c!"            ;(println result)\r\n",
    c!"            (return result)\r\n",
    c!"        )     \r\n",
    c!"  )\r\n",
    c!"  \r\n",
    c!"  ;; create the standard library for fuel on .NET platforms\r\n",
    c!"  (if (isNET)\r\n",
    c!"    (do\r\n",
    c!"      (evalstr (create-native \"Math\" \"System.Math\"))\r\n",
    c!"      (evalstr (create-native \"File\" \"System.IO.File\"))\r\n",
    c!"      (evalstr (create-native \"FileInfo\" \"System.IO.FileInfo\"))\r\n",
    c!"      (evalstr (create-native \"Directory\" \"System.IO.Directory\"))\r\n",
    c!"      (evalstr (create-native \"List\" \"System.Collections.Generic.List`1[[System.Object]]\"))\r\n",
    c!"      (evalstr (create-native \"Array\" \"System.Object[]\"))\r\n",
    c!"      (evalstr (create-native \"Dict\" \"System.Collections.Generic.Dictionary`2[[System.Object],[System.Object]]\"))\r\n",
    c!"    )\r\n",
    c!"  )\r\n",
    c!"  \r\n",
    c!";  (evalstr \"(defn yyy (x) (+ x x x))\")\r\n",
    c!";  (eval '(defn xxx (x) (+ x x x)))\r\n",
    c!";  (eval '(do (defn x1 (x) (+ x x x)) (defn x2 (x) (* x x x))))\r\n",
    c!"\r\n",
    c!"  (nop)\r\n",
    c!")\r\n",
    c!"  "]

/-- Library/fuellib.fuel: the text of the file. -/
def libText : Str := (libLines1 ++ libLines2 ++ libLines3 ++ libLines4 ++ libLines5 ++ libLines6 ++ libLines7).flatten

variable [World]

/-- The names that the library uses while it is loaded. -/
def libNames : List Str := [c!"do", c!"defn", c!"fn", c!"def", c!"define-macro-eval", c!"if", c!"==", c!"nth", c!"platform", c!"nop"]

/-- The names that the library defines. -/
def LibItem.name : LibItem → Str
  | .fn n _ _ => n
  | .mac n _ _ => n

/-- The library was loaded: there are three more frames, the second next one was used by a call of `isNET`; the functions are in the frame of the
library and in its copy, which belongs to the new module; the macros are defined; nothing else has changed. -/
structure Loaded (file : Str) (R R' : Conf) : Prop where
  count : R'.count = R.count + 3
  low : ∀ i, i < R.count → R'.frames i = R.frames i
  copy : R'.frames (R.count + 2) = R'.frames R.count
  fns : ∀ n ps body, LibItem.fn n ps body ∈ libItems → (R'.frames R.count).vars n = some (.clo ps body R.count)
  others : ∀ n, (∀ ps body, LibItem.fn n ps body ∉ libItems) → (R'.frames R.count).vars n = none
  parent : (R'.frames R.count).parent = none
  macros : ∀ n ps body, LibItem.mac n ps body ∈ libItems → R'.macros n = some (ps, body)
  old : ∀ n, (∀ ps body, LibItem.mac n ps body ∉ libItems) → R'.macros n = R.macros n
  modules : Inserted file (R.count + 2) R.modules R'.modules
  out : R'.out = R.out
  input : R'.input = R.input
  dicts : R'.dicts = R.dicts
  lib : R'.lib = R.lib

end Fuel.Spec.Core
