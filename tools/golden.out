C01	0	?a@?$?0H@@3HA	err Undname.Error.InvalidTemplateInstantiationName	same
C02	0	??_H@YAXXZ	ok void __cdecl `vector ctor iterator'(void) #41	same
C02	0	??Z@YAXXZ	ok void __cdecl operator-=(void) #29	same
C04	0	?x@?$A@UB@@@@3HA	ok int A<struct B>::x #18	same
C05	0	@NODES2048	ok int ************************************************************************************************************************************************************************************************************************************************************************************************************************************************************************************************************ #2047	same
C05	0	@NODES2049	err Undname.Error.MaliciousInput	same
C07	0	?x@@3HA	ok int x #5	same
C08	0	?x@@3HZ	err Undname.Error.InvalidQualifiers	same
C10	0	x@@3HA	err Undname.Error.Io (Undname.IoKind.UnexpectedEof)	same
C10	0		err Undname.Error.Io (Undname.IoKind.UnexpectedEof)	same
C11	0	??@abc@??_R4@	ok ??@abc@??_R4@ #13	same
C11	0	??@abc@??_R4	ok ??@abc@ #7	same
C11	0	??@abc@	ok ??@abc@ #7	same
C11	0	??@@	ok ??@@ #4	same
C12	0	??@abc	err Undname.Error.InvalidMd5Name	same
C13	0	??$f@$0A@@@YAXXZ	ok void __cdecl f<0>(void) #23	same
C13	0	??$f@$00@@YAXXZ	ok void __cdecl f<1>(void) #23	same
C13	0	??$f@$09@@YAXXZ	ok void __cdecl f<10>(void) #24	same
C13	0	??$f@$0?L@@@YAXXZ	ok void __cdecl f<-11>(void) #25	same
C13	0	??$f@$0BAA@@@YAXXZ	ok void __cdecl f<256>(void) #25	same
C14	0	??$f@$0BAAAAAAAAAAAAAAAF@@@YAXXZ	ok void __cdecl f<5>(void) #23	same
C15	0	??$f@$FHPPPPPPPPPPPPPPP@A@@@YAXXZ	ok void __cdecl f<{9223372036854775807, 0}>(void) #46	same
C15	0	??$f@$FIAAAAAAAAAAAAAAA@A@@@YAXXZ	err Undname.Error.InvalidSigned	same
C15	0	??$f@$F?IAAAAAAAAAAAAAAA@A@@@YAXXZ	err Undname.Error.InvalidSigned	same
C15	0	??$f@$GA@BA@CA@@@YAXXZ	ok void __cdecl f<{0, 16, 32}>(void) #33	same
C15	0	??$f@$FA@BA@@@YAXXZ	ok void __cdecl f<{0, 16}>(void) #29	same
C16	0	?x@a@b@c@@3HA	ok int c::b::a::x #14	same
C17	0	?x@@3HB	ok int const x #11	same
C17	0	?x@@3HC	ok int volatile x #14	same
C17	0	?x@@3PAY01HA	ok int (*x)[2] #11	same
C17	0	?x@@3PBHB	ok int const *x #12	same
C17	0	?x@@3PAUS@@A	ok struct S *x #11	same
C17	0	?x@@3P8S@@AEHXZQ1@	ok int (__thiscall S::*x)(void) #28	same
C18	0	?f@@YAHPAHZZ	ok int __cdecl f(int *, ...) #25	same
C18	0	?f@@YAHZZ	ok int __cdecl f(...) #18	same
C18	0	?f@@YAXXZ	ok void __cdecl f(void) #20	same
C18	0	?f@@YGHHN@Z	ok int __stdcall f(int, double) #28	same
C18	0	?f@S@@QBEHXZ	ok public: int __thiscall S::f(void) const #39	same
C18	0	?f@S@@UAEHXZ	ok public: virtual int __thiscall S::f(void) #41	same
C18	0	?f@S@@SAHXZ	ok public: static int __cdecl S::f(void) #37	same
C18	0	?f@@YAHP6AHH@Z@Z	ok int __cdecl f(int (__cdecl *)(int)) #35	same
C18	0	?f@@YAXX_E	ok void __cdecl f(void) noexcept #29	same
C19	0	?x@a@b@0@3HA	ok int x::b::a::x #14	same
C19	0	?x@a@b@1@3HA	ok int a::b::a::x #14	same
C19	0	?f@@YAXUa@@Ub@@Uc@@Ud@@Ue@@Ug@@Uh@@Ui@@Uj@@U9@@Z	ok void __cdecl f(struct a, struct b, struct c, struct d, struct e, struct g, struct h, struct i, struct j, struct j) #114	same
C19	0	?f@@YAXUa@@Ub@@Uc@@Ud@@Ue@@Ug@@Uh@@Ui@@Uj@@Uk@@U9@@Z	ok void __cdecl f(struct a, struct b, struct c, struct d, struct e, struct g, struct h, struct i, struct j, struct k, struct j) #124	same
C19	0	?x@a@a@2@3HA	err Undname.Error.InvalidBackRef	same
C19	0	?x@a@a@1@3HA	ok int a::a::a::x #14	same
C19	0	?x@?Ak@a@1@3HA	ok int k::a::`anonymous namespace'::x #34	same
C20	0	?f@@YAXPAHPAD0@Z	ok void __cdecl f(int *, char *, int *) #36	same
C20	0	?f@@YAXPAHPAD1@Z	ok void __cdecl f(int *, char *, char *) #37	same
C20	0	?f@@YAXHPAD0@Z	ok void __cdecl f(int, char *, char *) #35	same
C20	0	?f@@YAXHPAD1@Z	err Undname.Error.InvalidFunctionParameterList	same
C21	0	?x@?$a@Ub@@@c@0@3HA	ok int x::c::a<struct b>::x #24	same
C21	0	?x@?$a@Ub@@U1@@c@1@3HA	ok int a<struct b, struct b>::c::a<struct b, struct b>::x #54	same
C21	0	?x@y@?$a@Ub@@U1@@1@3HA	ok int y::a<struct b, struct b>::y::x #34	same
C22	0	.?AUS@@	ok struct S `RTTI Type Descriptor Name' #36	same
C22	0	.?AUS@@x	err Undname.Error.InvalidTypeinfoName	same
C22	0	??_R0H@8	ok int `RTTI Type Descriptor' #26	same
C22	0	??_R0H@8x	err Undname.Error.InvalidSpecialIntrinsic	same
C23	0	??_7S@@6B@	ok const S::`vftable' #18	same
C23	0	??_8S@@7B@	ok const S::`vbtable' #18	same
C23	0	??_7S@@6BT@@@	ok const S::`vftable'{for `T'} #27	same
C23	0	??_R4S@@6B@	ok const S::`RTTI Complete Object Locator' #39	same
C23	0	??_SS@@6B@	ok const S::`local vftable' #24	same
C24	0	??0S@@QAE@XZ	ok public: __thiscall S::S(void) #29	same
C24	0	??1S@N@@QAE@XZ	ok public: __thiscall N::S::~S(void) #33	same
C25	0	??BS@@QAEHXZ	ok public: int __thiscall S::operator int(void) #44	same
C25	0	??BS@@QBEPADXZ	ok public: char * __thiscall S::operator char *(void) const #56	same
C26	0	??_C@_02PCEFGMJL@hi?$AA@	ok "hi" #4	same
C26	0	??_C@_13PCEFGMJL@?$AAh?$AAi?$AA?$AA@	ok L"h\0" #6	same
C26	0	??_C@_1EA@PCEFGMJL@?$AAh?$AAi@	ok L"hi" #5	same
C26	0	??_C@_03PCEFGMJL@h?$AA?$AA@	ok u"h"... #7	same
C27	0	??_C@_02PCEFGMJL@?$HP?$AA@	ok "\x7F\0"... #11	same
C28	0	??_C@_0IB@ABCDEFGH@aaaaaaaaaaaaaaaaaaaaaaaaaaaaaaaaaaaaaaaaaaaaaaaaaaaaaaaaaaaaaaaaaaaaaaaaaaaaaaaaaaaaaaaaaaaaaaaaaaaaaaaaaaaaaaaaaaaaaaaaaaaaaaaaa@	err Undname.Error.InvalidStringLiteral	same
C28	0	??_C@_0IB@ABCDEFGH@aaaaaaaaaaaaaaaaaaaaaaaaaaaaaaaaaaaaaaaaaaaaaaaaaaaaaaaaaaaaaaaaaaaaaaaaaaaaaaaaaaaaaaaaaaaaaaaaaaaaaaaaaaaaaaaaaaaaaaaaaaaaaaaa@	ok "aaaaaaaaaaaaaaaaaaaaaaaaaaaaaaaaaaaaaaaaaaaaaaaaaaaaaaaaaaaaaaaaaaaaaaaaaaaaaaaaaaaaaaaaaaaaaaaaaaaaaaaaaaaaaaaaaaaaaaaaaaaaaaaa"... #133	same
C30	0	?f@@YAHP6AHH@Z@Z	ok int __cdecl f(int (__cdecl *)(int)) #35	same
C30	0	?x@@3PAY01HA	ok int (*x)[2] #11	same
C31	64	?f@S@@QBEHXZ	ok public: int __thiscall S::f(void) #33	same
C31	32832	?f@S@@QBEHXZ	ok public: int __thiscall S::f(void) #33	same
C32	256	?f@S@@QBEHPIAH@Z	ok public: int S::f(int *) const #29	same
C32	385	?f@S@@QBEHPIAH@Z	ok public: int S::f(int *) const #29	same
C33	512	?f@S@@QBEHX_E	ok S::f noexcept #13	same
C33	636	?f@S@@QBEHX_E	ok S::f noexcept #13	same
C35	512	?f@S@@QBEHX_E	ok S::f noexcept #13	same
C35	512	?f@S@@$4PPPPPPPM@A@EAAXXZ	ok S::f`vtordisp{-4, 0}' #21	same
C35	512	?x@N@@3HA	ok N::x #4	same
C36	0	??M@YAXXZ	ok void __cdecl operator<(void) #28	same
C36	0	??N@YAXXZ	ok void __cdecl operator<=(void) #29	same
C36	0	??_U@YAXXZ	ok void __cdecl operator new[](void) #33	same
C36	0	??_V@YAXXZ	ok void __cdecl operator delete[](void) #36	same
C36	0	??__M@YAXXZ	ok void __cdecl operator<=>(void) #30	same
C36	0	??_W@YAXXZ	ok void __cdecl (void) #19	same
C36	0	??a@YAXXZ	err Undname.Error.InvalidIntrinsicFunctionCode	same
C38	0	?f@S@@$4PPPPPPPM@BA@EAAXXZ	ok [thunk]: public: virtual void __cdecl S::f`vtordisp{-4, 16}'(void) #66	same
C38	0	?f@S@@$R4BA@CA@DA@EA@EAAXXZ	ok [thunk]: public: virtual void __cdecl S::f`vtordispex{16, 32, 48, 64}'(void) #76	same
C38	0	?f@S@@WBAAAAAABA@EAAXXZ	ok [thunk]: public: virtual void __cdecl S::f`adjustor{16}'(void) #62	same
C39	0	?x@@3HAjunk	ok int x #5	same
C39	0	?f@@YAXXZjunk	ok void __cdecl f(void) #20	same
C41	256	?f@@YAHPIAH@Z	ok int f(int *) #12	same
C42	0	?x@@3Y01HA	ok int x[2] #8	same
C42	0	?x@@3Y112HA	ok int x[2][3] #11	same
C42	0	?x@@3YA@HA	err Undname.Error.InvalidArrayType	same
C43	0	?x@?Akey@@3HA	ok int `anonymous namespace'::x #28	same
C43	0	?x@?1??f@@YAHXZ@4HA	ok int `int __cdecl f(void)'::`2'::x #33	same
C43	0	?x@?BA@??f@@YAHXZ@4HA	ok int `int __cdecl f(void)'::`16'::x #34	same
C45	0	?x@@3HZ	err Undname.Error.InvalidQualifiers	same
C46	0	?x@@3PQS@@HQ1@	ok int S::*x #9	same
C46	0	??_9S@@$B7AA	ok [thunk]: __cdecl S::`vcall'{8, {flat}} #38	same
C46	0	??_R1A@?0A@EA@S@@8	ok S::`RTTI Base Class Descriptor at (0, -1, 0, 64)' #49	same
C46	0	??_BS@@5BA@	ok S::`local static guard'{16} #27	same
C46	0	??_BS@@51	ok S::`local static guard'{2} #26	same
C46	0	??__E?i@C@@0HA@@YAXXZ	ok void __cdecl `dynamic initializer for `private: static int C::i''(void) #71	same
C46	0	??__Ff@@YAXXZ	ok void __cdecl `dynamic atexit destructor for 'f''(void) #54	same
C46	0	??$f@$1?g@@YAXXZ@@YAXXZ	ok void __cdecl f<&void __cdecl g(void)>(void) #43	same
C46	0	??$f@$H?g@@YAXXZA@@@YAXXZ	ok void __cdecl f<{void __cdecl g(void), 0}>(void) #47	same
C46	0	??$f@$E?g@@3HA@@YAXXZ	ok void __cdecl f<int g>(void) #27	same
C46	0	??$f@$M_N0A@@@YAXXZ	ok void __cdecl f<0>(void) #23	same
C46	0	?x@@3U?$J@UN@@$HA@@@A	ok struct J<struct N, {0}> x #25	same
C46	0	?f@@YA?BUS@@XZ	ok struct S const __cdecl f(void) #30	same
C46	0	?x@@3PIEBHIB	err Undname.Error.InvalidType	same
C47	0	?f@@YAXPAHPAD0@Z	ok void __cdecl f(int *, char *, int *) #36	same
C34	0	?x@?$A@UB@@@?$A@VB@@@2@3HA	ok int A<class B>::A<class B>::A<struct B>::x #42	same
C34	2	?x@?$A@UB@@@?$A@VB@@@2@3HA	err Undname.Error.InvalidBackRef	same
C34	1	?x@?$A@P6AXXZ@?$A@P6GXXZ@2@3HA	err Undname.Error.InvalidBackRef	same
C34	16	?x@?$A@$1?f@@YAHXZ@?$A@$1?f@@YAXXZ@2@3HA	err Undname.Error.InvalidBackRef	same
C34	2	?x@?$A@UB@@@?$A@VB@@@C@2@3HA	ok int C::C::A<B>::A<B>::x #23	same
C34	0	?x@?1??f@A@@YAXPEAUB@2@0@Z@3UB@2@A	ok struct A::B `void __cdecl A::f(struct A::B *, struct A::B *)'::`2'::x #69	same
C34	1023	?x@?1??f@A@@YAXPEAUB@2@0@Z@3UB@2@A	ok `A::f'::`2'::x #14	same
C37	0	??_W@9	ok extern "C"  #11	same
C37	8	??_W@9	ok  #0	same
C37	32	??_W@3HA	ok  #0	same
C37	512	??__0@YAXXZ	ok  #0	same
C37	512	.$$A6AXXZ	ok  #0	same
C37	1023	?f@A@@UAEXH@Z	ok A::f #4	same
C44	0	?x@?1??f@A@@QBEHPEIAUB@2@0@Z@3UB@2@A	ok struct A::B `public: int __thiscall A::f(struct A::B *__restrict, struct A::B *__restrict) const'::`2'::x #105	same
C44	66	?x@?1??f@A@@QBEHPEIAUB@2@0@Z@3UB@2@A	ok A::B `public: int __thiscall A::f(A::B *__restrict, A::B *__restrict)'::`2'::x #78	same
C44	16	.$$A6APAY02HX_E	ok __cdecl(void) noexcept `RTTI Type Descriptor Name' #50	same
C44	0	?f@A@@UAEPAUB@@H@Z	ok public: virtual struct B * __thiscall A::f(int) #47	same
C44	13	?f@A@@UAEPAUB@@H@Z	ok struct B * A::f(int) #20	same
C44	16	?f@A@@UAEPAUB@@H@Z	ok public: virtual __thiscall A::f(int) #36	same
C44	64	?f@A@@UBEPAUB@@H@Z	ok public: virtual struct B * __thiscall A::f(int) #47	same
C44	32	?x@A@@2PAY02HA	ok public: static A::x #19	same
C46	0	?f@@YA?AU?$S@H@@XZ	ok struct S<int> __cdecl f(void) #29	same
C46	256	?x@@3PIFAHIA	ok int *x #6	same
C17	0	?x@@3PDHD	ok int const volatile *x #21	same
C32	128	?f@@YAXPIFAH@Z	ok void cdecl f(int unaligned *restrict) #37	same
C18	0	?f@@YQXXZ	ok void __vectorcall f(void) #25	same
C18	0	?f@S@@IAEXXZ	ok protected: void __thiscall S::f(void) #37	same
C18	0	?f@S@@SAXXZ	ok public: static void __cdecl S::f(void) #38	same
C18	0	?f@S@@UAEXXZ	ok public: virtual void __thiscall S::f(void) #42	same
C35	512	??$f@H@@YAHXZ	ok f<int> #6	same
C17	0	?x@@3P6AHXZA	ok int (__cdecl *x)(void) #22	same
C30	16	?f@@YAP6AHXZXZ	ok __cdecl f(void) #15	same
C44	16	?f@@YAP6AHXZXZ	ok __cdecl f(void) #15	same
C35	512	?f@S@@W7AEXXZ	ok S::f`adjustor{8}' #17	same
C38	0	?f@S@@$R4A@7BA@7AEXXZ	ok [thunk]: public: virtual void __thiscall S::f`vtordispex{0, 8, 16, 8}'(void) #76	same
C17	0	?x@@3TU@@A	ok union U x #9	same
C42	0	?x@@3PAY1A@0HA	ok int (*x)[][1] #13	same
C46	0	?x@@3U?$S@$F12@@A	ok struct S<{2, 3}> x #18	same
C46	0	??_9S@@$B7AA	ok [thunk]: __cdecl S::`vcall'{8, {flat}} #38	same
C46	0	??_B?1??f@@YAXXZ@50	ok `void __cdecl f(void)'::`2'::`local static guard'{1} #52	same
C46	0	??_B?1??f@@YAXXZ@51	ok `void __cdecl f(void)'::`2'::`local static guard'{2} #52	same
C24	0	??1A@B@@QAE@XZ	ok public: __thiscall B::A::~A(void) #33	same
C24	0	??0A@B@C@@QAE@XZ	ok public: __thiscall C::B::A::A(void) #35	same
C46	0	?x@@3U?$S@$1?y@@3HA$E?z@@3HA@@A	ok struct S<&int y, int z> x #25	same
C26	0	??_C@_03ABCD@abc?$AA@	ok "abc" #5	same
C35	512	??_7S@@6B@	ok S::`vftable' #12	same
C44	4	?x@S@@2HA	ok static int S::x #15	same
C44	8	?x@S@@2HA	ok public: int S::x #16	same
C18	0	?f@@YGXXZ	ok void __stdcall f(void) #22	same
C18	0	?f@@YAXX_E	ok void __cdecl f(void) noexcept #29	same
C17	0	?x@@3PEIFAHEIFA	ok int __unaligned *__restrict x #29	same
C46	0	?x@@3U?$S@$$BH$$$VI$$V@@A	ok struct S<int, unsigned int> x #29	same
C48	0	?x@?$?0H@@3HA	err Undname.Error.InvalidTemplateInstantiationName	same
C21	0	?x@@3U?$A@H@@A	ok struct A<int> x #15	same
C25	0	??B@3HA	err Undname.Error.InvalidDeclarator	same
C48	0	??_B?1??f@@YAXXZ@5BAAAAAAAA@	err Undname.Error.InvalidLocalStaticGuard	same
C48	0	??_R10IAAAAAAA@A@A@S@@8	err Undname.Error.InvalidRttiBaseClassDescriptorNode	same
C48	0	??__E?x@@3HA@@YAXXZ	ok void __cdecl `dynamic initializer for `int x''(void) #52	same
C48	0	??__E?x@@3HA@YAXXZ	err Undname.Error.InvalidInitFiniStub	same
C16	0	?x@@4HA	ok int x #5	same
C26	0	??_C@_05ABCD@?6?7?8a?$AA@	ok "\n\t\'a\0"... #14	same
C26	0	??_C@_1EA@ABCD@?$AAa?$AA?$AA@	ok L"a\0" #6	same
C27	0	??_C@_06ABCD@a?$AAb?$AAc?$AA?$AA?$AA@	ok "a\0b\0c\0\0" #13	same
C17	0	?x@@3PRS@@HR1@	ok int const S::*x #15	same
C21	0	?f@?$A@H@@YAXU1@@Z	ok void __cdecl A<int>::f(struct A<int>) #37	same
