import Verif.Check.Wiki
/-
The texts of `doc/regression_test.py`, which were found by chance to end with an exception in earlier
versions; without the two longest ones.
-/
namespace Bglib.Check
open Bglib Bglib.Doc

def regression_2 : Text := t!"7![f=.query:&4.[query:http:entry:c-a^query: _b!*a28query:http::http:4\"7match:gg6 7}=ii8wiki:match:wiki:!-`!~b=`&2h_^9\n{cde&f}https:_7=query: \"2bc2}\"=}#6i8i.f&<\n3~_/a\nv:]+{5h+_/def\n4f5match:>4[5=! h&-4match:714\n`6!5id}+/3.`{}+entry::]:a}*query:i\nentry:e^ 'fhe*if<\n<*/99{{match:^:https:!806~&=/`+ |https:wiki:<e&*http:[|c75he[!v]http:g\n[i<>&8|-*3-[|&f5<query:5v+gfb9[cv55/bev=wiki:!\n-query:'9|'+~https:\"wiki:#>~https:`\nd\n  d >2hwiki:'|https:v714query:c'*https:*8/+ \n"

def regression_3 : Text := t!":1.]http:c0d8~{#\"i\"entry:<3~[1{/`fh4`90v^8]g4[c#&f=\"_*3[h\n+CamelWord_>72http:97\"CamelWord|bhttps:b]CamelWord5CamelWorddh}=2_a[c9https:d+1^match:5 a1CamelWordfbh[}'''*6_query:\"match:34{\" ||hmatch:cg<wiki:985/+>8b-0{'i-61http:.>^~+.>230]\n5:7/entry:-ahttps:[~}9CamelWord\"}9=^||i#6a{<*.-:[7https:.{>https:~6d:&:]match:d <0&2http:4\n}+wiki:5b[ entry::+/||0`g}#^|g<*h||0adhquery:_+=\"-[:`match::/5||\n}0CamelWord||e*!query:wiki:fg5-afg7/{i-wiki:5`'b[/b0+.fh5a<CamelWord.=4d'\n  8 .*[h3cf7.|_>"

def regression_3_1 : Text := t!":1.]http:c0d8~{#\"i\"entry:<3~[1{/`fh4`90v^8]g4[c#&f=\"_*3[h\n+CamelWord_>72http:97\"CamelWord|bhttps:b]CamelWord5CamelWorddh}=2_a[c9https:d+1^match:5 a1CamelWordfbh[}'''*6_query:\"match:34{\" ||hmatch:cg<wiki:985/+>8b-0{'i-61http:.>^~+.>230]\n"

def regression_3_2 : Text := t!"5:7/entry:-ahttps:[~}9CamelWord\"}9=^||i#6a{<*.-:[7https:.{>https:~6d:&:]match:d <0&2http:4\n}+wiki:5b[ entry::+/||0`g}#^|g<*h||0adhquery:_+=\"-[:`match::/5||\n}0CamelWord||e*!query:wiki:fg5-afg7/{i-wiki:5`'b[/b0+.fh5a<CamelWord.=4d'\n  8 .*[h3cf7.|_>"

def regression_3_2_1 : Text := t!"5:7/entry:-ahttps:[~}9CamelWord\"}9=^||i#6a{<*.-:[7https:.{>https:~6d:&:]match:d <0&2http:4\n}+wiki:5b[ entry::+/||0`g}#^|g<*h||0adhquery:_+=\"-[:`match::/5||\n"

def regression_3_2_2 : Text := t!"}0CamelWord||e*!query:wiki:fg5-afg7/{i-wiki:5`'b[/b0+.fh5a<CamelWord.=4d'\n  8 .*[h3cf7.|_>"

def regression_3_2_2_1 : Text := t!"}0CamelWord||e*!query:wiki:fg5-afg7/{i-wiki:5`'b[/b0+.fh5a<CamelWord.=4d'"

def regression_3_2_2_2 : Text := t!"  8 .*[h3cf7.|_>"

def regression_bad_indent : Text := t!"  8 "

/-- The tests ask only that parsing ends without an exception. -/
def parses (t : Text) : Bool := match Wiki.start.parse testEnv t with
  | .ok _ => true
  | .error _ => false

example : parses regression_2 = true := by decide +kernel
example : parses regression_3 = true := by decide +kernel
example : parses regression_3_1 = true := by decide +kernel
example : parses regression_3_2 = true := by decide +kernel
example : parses regression_3_2_1 = true := by decide +kernel
example : parses regression_3_2_2 = true := by decide +kernel
example : parses regression_3_2_2_1 = true := by decide +kernel
example : parses regression_3_2_2_2 = true := by decide +kernel
example : parses regression_bad_indent = true := by decide +kernel

end Bglib.Check
